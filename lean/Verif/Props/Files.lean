import Verif.Lemmas.Files
import Verif.Lemmas.FileParse
import Verif.Props.Reread
import Verif.Props.Totals

/-! Properties C32 and C33: what a file holds. -/

namespace Metro2

theorem newBase_parse_isBase (enc : Enc) (rec : Bytes) (isVar : Bool) :
    Spec.IsBase enc ((newBase enc).parse rec isVar).1 ∧ Spec.WellTyped ((newBase enc).parse rec isVar).1 := by
  refine ⟨?_, (C13_record (newBase enc) (zeroFields_typed _) rec isVar).2⟩
  cases enc <;> exact ⟨_, _, rfl⟩

theorem parseBases_inv {enc : Enc} {isVar : Bool} {record : Bytes} {P : Record → Prop}
    (hP : ∀ rec, P ((newBase enc).parse rec isVar).1) (fuel : Nat) (off : Int) (acc : List Record)
    (ha : ∀ r ∈ acc, P r) {bs : List Record} {o : Int} {e : Option Err}
    (h : parseBases enc isVar record fuel off acc = some (bs, o, e)) : ∀ r ∈ bs, P r := by
  induction fuel generalizing off acc with
  | zero => cases h
  | succ fuel ih =>
    rw [parseBases] at h
    split at h
    · cases h; exact ha
    · split at h
      · cases h; exact ha
      · next tail _ =>
        have hp := hP tail
        generalize (newBase enc).parse tail isVar = q at h hp
        obtain ⟨b, x⟩ := q
        cases x with
        | error err =>
          cases err
          all_goals (simp only at h; cases h; exact ha)
        | ok read =>
          simp only at h
          refine ih _ _ ?_ h
          intro r hr
          rcases List.mem_append.1 hr with hr | hr
          · exact ha r hr
          · rw [List.mem_singleton.1 hr]; exact hp

theorem Spec.Uniform.elim {f : File} (hu : Spec.Uniform f) : ∃ fmt hfs bs tfs,
    f = ⟨fmt, .header fmt hfs, bs, .trailer fmt tfs⟩ ∧ ∀ r ∈ bs, Spec.IsBase fmt r := by
  obtain ⟨fmt, hd, bs, tr⟩ := f
  obtain ⟨⟨hfs, h1⟩, hb, ⟨tfs, h2⟩⟩ := hu
  simp only at h1 h2 hb
  exact ⟨fmt, hfs, bs, tfs, by rw [h1, h2], hb⟩

theorem File.parse_inv {f g : File} (hu : Spec.Uniform f) (ht : Spec.TypedFile f) {fuel : Nat} {buf : Bytes}
    {isVar : Bool} {e : Option Err} (h : f.parse fuel buf isVar = some (g, e)) :
    Spec.Uniform g ∧ Spec.TypedFile g := by
  obtain ⟨fmt, hfs, bs, tfs, rfl, hb⟩ := hu.elim
  obtain ⟨ht1, ht2, ht3⟩ := ht
  unfold File.parse at h
  generalize (deleteFunc isNewline buf).1 = record at h
  simp only at h
  have hh := (C13_record (.header fmt hfs) ht1 record isVar).2
  have hs : ∃ fs, ((Record.header fmt hfs).parse record isVar).1 = .header fmt fs := ⟨_, rfl⟩
  generalize (Record.header fmt hfs).parse record isVar = q at h hh hs
  obtain ⟨h', x⟩ := q
  obtain ⟨hfs', rfl⟩ := hs
  cases x with
  | error err =>
    simp only at h
    cases h
    exact ⟨⟨⟨_, rfl⟩, by simp, ⟨_, rfl⟩⟩, ⟨hh, by simp, ht3⟩⟩
  | ok head =>
    simp only at h
    cases hpb : parseBases fmt isVar record fuel head [] with
    | none => rw [hpb] at h; cases h
    | some q =>
      obtain ⟨bs', off, e'⟩ := q
      rw [hpb] at h
      have hinv := parseBases_inv (P := fun r => Spec.IsBase fmt r ∧ Spec.WellTyped r)
        (fun rec => newBase_parse_isBase fmt rec isVar) fuel head [] (by simp) hpb
      have h1 : ∀ r ∈ bs', Spec.IsBase fmt r := fun r hr => (hinv r hr).1
      have h2 : ∀ r ∈ bs', Spec.WellTyped r := fun r hr => (hinv r hr).2
      cases e' with
      | some err =>
        simp only at h
        cases h
        exact ⟨⟨⟨_, rfl⟩, h1, ⟨_, rfl⟩⟩, ⟨hh, h2, ht3⟩⟩
      | none =>
        simp only at h
        split at h
        · cases h
          exact ⟨⟨⟨_, rfl⟩, h1, ⟨_, rfl⟩⟩, ⟨hh, h2, ht3⟩⟩
        · split at h
          · cases h
            exact ⟨⟨⟨_, rfl⟩, h1, ⟨_, rfl⟩⟩, ⟨hh, h2, ht3⟩⟩
          · next tail _ =>
            have hh2 := (C13_record (.trailer fmt tfs) ht3 tail isVar).2
            have hs2 : ∃ fs, ((Record.trailer fmt tfs).parse tail isVar).1 = .trailer fmt fs := ⟨_, rfl⟩
            generalize (Record.trailer fmt tfs).parse tail isVar = q at h hh2 hs2
            obtain ⟨t', x⟩ := q
            obtain ⟨tfs', rfl⟩ := hs2
            cases x with
            | error err =>
              simp only at h
              cases h
              exact ⟨⟨⟨_, rfl⟩, h1, ⟨_, rfl⟩⟩, ⟨hh, h2, hh2⟩⟩
            | ok tread =>
              simp only at h
              split at h
              · cases h
                exact ⟨⟨⟨_, rfl⟩, h1, ⟨_, rfl⟩⟩, ⟨hh, h2, hh2⟩⟩
              · cases h
                exact ⟨⟨⟨_, rfl⟩, h1, ⟨_, rfl⟩⟩, ⟨hh, h2, hh2⟩⟩

theorem File.setRecord_cases (f : File) (r : Record) :
    (∃ e, f.setRecord r = (f, some e)) ∨
    (∃ fs, r = .header f.format fs ∧ r.validate = none ∧ f.setRecord r = ({ f with header := r }, none)) ∨
    (∃ fs, r = .trailer f.format fs ∧ r.validate = none ∧ f.setRecord r = ({ f with trailer := r }, none)) := by
  unfold File.setRecord
  cases hv : r.validate with
  | some e => exact Or.inl ⟨e, rfl⟩
  | none =>
    cases r with
    | header enc fs =>
      by_cases he : f.format = enc
      · exact Or.inr (Or.inl ⟨fs, by rw [he], rfl, by simp only [he, if_true]⟩)
      · exact Or.inl ⟨_, by simp only [he, if_false]; rfl⟩
    | trailer enc fs =>
      by_cases he : f.format = enc
      · exact Or.inr (Or.inr ⟨fs, by rw [he], rfl, by simp only [he, if_true]⟩)
      · exact Or.inl ⟨_, by simp only [he, if_false]; rfl⟩
    | base enc fs g => exact Or.inl ⟨_, rfl⟩

theorem File.addDataRecord_cases (f : File) (r : Record) :
    (∃ e, f.addDataRecord r = (f, some e)) ∨
    (Spec.IsBase f.format r ∧ r.validate = none ∧ f.addDataRecord r = ({ f with bases := f.bases ++ [r] }, none)) := by
  unfold File.addDataRecord
  cases hv : r.validate with
  | some e => exact Or.inl ⟨e, rfl⟩
  | none =>
    cases r with
    | header enc fs => exact Or.inl ⟨_, rfl⟩
    | trailer enc fs => exact Or.inl ⟨_, rfl⟩
    | base enc fs g =>
      by_cases he : f.format = enc
      · exact Or.inr ⟨⟨fs, g, by rw [he]⟩, rfl, by simp only [he, if_true]⟩
      · exact Or.inl ⟨_, by simp only [he, if_false]; rfl⟩

theorem convertBases_uniform {src dst : Enc} {bs : List Record} (h : ∀ r ∈ bs, Spec.IsBase src r) :
    convertBases src dst bs = some (bs.map (Spec.inFormat dst)) := by
  induction bs with
  | nil => rfl
  | cons r bs ih =>
    obtain ⟨fs, g, rfl⟩ := h r List.mem_cons_self
    rw [convertBases, ih fun r hr => h r (List.mem_cons_of_mem _ hr)]
    simp [convertBase, Spec.inFormat]

theorem File.convert_uniform {f : File} (hu : Spec.Uniform f) (dst : Enc) :
    f.convert dst = (⟨dst, Spec.inFormat dst f.header, f.bases.map (Spec.inFormat dst), Spec.inFormat dst f.trailer⟩,
      none) := by
  obtain ⟨fmt, hfs, bs, tfs, rfl, hb⟩ := hu.elim
  simp only [File.convert, convertHeader, if_true, convertBases_uniform hb, convertTrailer, Spec.inFormat]

theorem inFormat_self {f : File} (hu : Spec.Uniform f) :
    (⟨f.format, Spec.inFormat f.format f.header, f.bases.map (Spec.inFormat f.format),
      Spec.inFormat f.format f.trailer⟩ : File) = f := by
  obtain ⟨fmt, hfs, bs, tfs, rfl, hb⟩ := hu.elim
  simp only [Spec.inFormat, File.mk.injEq, true_and, and_true]
  conv => rhs; rw [← List.map_id bs]
  apply List.map_congr_left
  intro r hr
  obtain ⟨fs, g, rfl⟩ := hb r hr
  rfl

theorem inFormat_inFormat (a b : Enc) (r : Record) : Spec.inFormat a (Spec.inFormat b r) = Spec.inFormat a r := by
  cases r <;> rfl

theorem inFormat_wellTyped {e : Enc} {r : Record} (h : Spec.WellTyped r) : Spec.WellTyped (Spec.inFormat e r) := by
  cases r <;> exact h

theorem uniform_inFormat {f : File} (hu : Spec.Uniform f) (dst : Enc) :
    Spec.Uniform ⟨dst, Spec.inFormat dst f.header, f.bases.map (Spec.inFormat dst), Spec.inFormat dst f.trailer⟩ := by
  obtain ⟨fmt, hfs, bs, tfs, rfl, hb⟩ := hu.elim
  refine ⟨⟨_, rfl⟩, ?_, ⟨_, rfl⟩⟩
  intro r hr
  obtain ⟨r', hr', rfl⟩ := List.mem_map.1 hr
  obtain ⟨fs, g, rfl⟩ := hb r' hr'
  exact ⟨fs, g, rfl⟩

theorem typed_inFormat {f : File} (ht : Spec.TypedFile f) (dst : Enc) :
    Spec.TypedFile ⟨dst, Spec.inFormat dst f.header, f.bases.map (Spec.inFormat dst), Spec.inFormat dst f.trailer⟩ := by
  refine ⟨inFormat_wellTyped ht.header, ?_, inFormat_wellTyped ht.trailer⟩
  intro r hr
  obtain ⟨r', hr', rfl⟩ := List.mem_map.1 hr
  exact inFormat_wellTyped (ht.bases r' hr')

/-- C33. `SetType` with a supported name succeeds and changes nothing but the format; -/
theorem C33_setType {f : File} (hu : Spec.Uniform f) (dst : Enc) :
    f.setType dst.name = (⟨dst, Spec.inFormat dst f.header, f.bases.map (Spec.inFormat dst),
      Spec.inFormat dst f.trailer⟩, none) := by
  rw [File.setType_name]
  split
  · next h => subst h; rw [inFormat_self hu]
  · exact f.convert_uniform hu dst

/-- C33. converting back restores the file; -/
theorem C33_back {f g : File} (hu : Spec.Uniform f) {name : Bytes} (h : f.setType name = (g, none)) :
    g.setType f.format.name = (f, none) := by
  by_cases hn : ∃ e : Enc, name = e.name
  · obtain ⟨dst, rfl⟩ := hn
    rw [C33_setType hu] at h
    cases h
    rw [C33_setType (uniform_inFormat hu dst)]
    simp only [inFormat_inFormat, List.map_map]
    have : (Spec.inFormat f.format ∘ Spec.inFormat dst) = Spec.inFormat f.format :=
      funext fun r => inFormat_inFormat _ _ r
    rw [this, inFormat_self hu]
  · rw [File.setType_other f fun e he => hn ⟨e, he⟩] at h
    cases h

/-- C33. any other name is rejected and changes nothing. -/
theorem C33_unknown (f : File) {name : Bytes} (h1 : name ≠ "character".toUTF8.data.toList)
    (h2 : name ≠ "packed".toUTF8.data.toList) : f.setType name = (f, some .invalidFile) := by
  apply File.setType_other
  intro e
  cases e
  · exact h1
  · exact h2

/-- Cases of `C33_setType` and `C33_back`. -/
example : Spec.Uniform (Samples.file .character) := ⟨⟨_, rfl⟩, Samples.file_bases _, ⟨_, rfl⟩⟩

example : (b! "metro") ≠ "character".toUTF8.data.toList ∧ (b! "metro") ≠ "packed".toUTF8.data.toList := by
  decide +kernel

/-- C32, one call. -/
theorem C32_step {f g : File} {op : Spec.Op} {e : Option Err} (hu : Spec.Uniform f) (ht : Spec.TypedFile f)
    (ho : op.WellTyped) (h : Spec.Step f op g e) : Spec.Uniform g ∧ Spec.TypedFile g := by
  have hset : ∀ r, Spec.WellTyped r → Spec.Uniform (f.setRecord r).1 ∧ Spec.TypedFile (f.setRecord r).1 := by
    intro r hr
    rcases f.setRecord_cases r with ⟨e, h⟩ | ⟨fs, hfs, -, h⟩ | ⟨fs, hfs, -, h⟩
    · rw [h]; exact ⟨hu, ht⟩
    · rw [h]; exact ⟨⟨⟨fs, hfs⟩, hu.bases, hu.trailer⟩, ⟨hr, ht.bases, ht.trailer⟩⟩
    · rw [h]; exact ⟨⟨hu.header, hu.bases, ⟨fs, hfs⟩⟩, ⟨ht.header, ht.bases, hr⟩⟩
  cases h with
  | setRecord r => exact hset r ho
  | addDataRecord r =>
    rcases f.addDataRecord_cases r with ⟨e, h⟩ | ⟨hb, -, h⟩
    · rw [h]; exact ⟨hu, ht⟩
    · rw [h]
      refine ⟨⟨hu.header, ?_, hu.trailer⟩, ⟨ht.header, ?_, ht.trailer⟩⟩
      · intro r' hr'
        rcases List.mem_append.1 hr' with hr' | hr'
        · exact hu.bases r' hr'
        · rw [List.mem_singleton.1 hr']; exact hb
      · intro r' hr'
        rcases List.mem_append.1 hr' with hr' | hr'
        · exact ht.bases r' hr'
        · rw [List.mem_singleton.1 hr']; exact ho
  | setType name =>
    by_cases hn : ∃ e : Enc, name = e.name
    · obtain ⟨dst, rfl⟩ := hn
      rw [C33_setType hu]
      exact ⟨uniform_inFormat hu dst, typed_inFormat ht dst⟩
    · rw [File.setType_other f fun e he => hn ⟨e, he⟩]
      exact ⟨hu, ht⟩
  | parse h => exact File.parse_inv hu ht h
  | generated h =>
    obtain ⟨fs, h1, h2, -⟩ := f.generatorTrailer_spec (File.generatorTrailer_ok h)
    rw [h1] at h
    cases h
    exact hset _ h2
  | notGenerated h => exact ⟨hu, ht⟩

/-- C32. After any calls, every record is of the file's format, in its place and well typed. -/
theorem C32_reachable {f : File} (h : Spec.Reachable f) : Spec.Uniform f ∧ Spec.TypedFile f := by
  induction h with
  | new enc =>
    exact ⟨⟨⟨_, rfl⟩, by simp [newFile], ⟨_, rfl⟩⟩, ⟨newHeader_typed enc, by simp [newFile], newTrailer_typed enc⟩⟩
  | step hf ho h ih => exact C32_step ih.1 ih.2 ho h

/-- C32. A call that is refused changes nothing (except a refused `Parse`). -/
theorem C32_refused {f g : File} {op : Spec.Op} {e : Err} (hu : Spec.Uniform f) (h : Spec.Step f op g (some e))
    (hp : ∀ buf isVar, op ≠ .parse buf isVar) : g = f := by
  have hset : ∀ r, (f.setRecord r).2 = some e → (f.setRecord r).1 = f := by
    intro r he
    rcases f.setRecord_cases r with ⟨e', h⟩ | ⟨fs, hfs, -, h⟩ | ⟨fs, hfs, -, h⟩
    · rw [h]
    · rw [h] at he; cases he
    · rw [h] at he; cases he
  generalize hee : some e = oe at h
  cases h with
  | setRecord r => exact hset r hee.symm
  | addDataRecord r =>
    rcases f.addDataRecord_cases r with ⟨e', h⟩ | ⟨hb, -, h⟩
    · rw [h]
    · rw [h] at hee; cases hee
  | setType name =>
    by_cases hn : ∃ e : Enc, name = e.name
    · obtain ⟨dst, rfl⟩ := hn
      rw [C33_setType hu] at hee
      cases hee
    · rw [File.setType_other f fun e he => hn ⟨e, he⟩]
  | parse h => exact absurd rfl (hp _ _)
  | generated h => exact hset _ hee.symm
  | notGenerated h => rfl

/-- C32. `SetRecord` accepts exactly the valid headers and trailers of the file's format, and stores
them in their place. -/
theorem C32_setRecord (f : File) (r : Record) (g : File) : f.setRecord r = (g, none) ↔
    r.validate = none ∧ ((∃ fs, r = .header f.format fs ∧ g = { f with header := r }) ∨
      ∃ fs, r = .trailer f.format fs ∧ g = { f with trailer := r }) := by
  constructor
  · intro h
    rcases f.setRecord_cases r with ⟨e', h'⟩ | ⟨fs, hfs, hv, h'⟩ | ⟨fs, hfs, hv, h'⟩
    · rw [h'] at h; cases h
    · rw [h'] at h; cases h; exact ⟨hv, Or.inl ⟨fs, hfs, rfl⟩⟩
    · rw [h'] at h; cases h; exact ⟨hv, Or.inr ⟨fs, hfs, rfl⟩⟩
  · rintro ⟨hv, ⟨fs, rfl, rfl⟩ | ⟨fs, rfl, rfl⟩⟩ <;>
    · unfold File.setRecord
      rw [hv]
      simp

/-- C32. `AddDataRecord` accepts exactly the valid data records of the file's format, and appends them. -/
theorem C32_addDataRecord (f : File) (r : Record) (g : File) : f.addDataRecord r = (g, none) ↔
    r.validate = none ∧ Spec.IsBase f.format r ∧ g = { f with bases := f.bases ++ [r] } := by
  constructor
  · intro h
    rcases f.addDataRecord_cases r with ⟨e', h'⟩ | ⟨hb, hv, h'⟩
    · rw [h'] at h; cases h
    · rw [h'] at h; cases h; exact ⟨hv, hb, rfl⟩
  · rintro ⟨hv, ⟨fs, g, rfl⟩, rfl⟩
    unfold File.addDataRecord
    rw [hv]
    simp

/-- A data record. -/
def Samples.dataRecord : Record := .base .character (Samples.base 0 1164) Samples.segs

theorem Samples.dataRecord_typed : Spec.WellTyped Samples.dataRecord := by
  have h : typedB baseSegmentStruct (Samples.base 0 1164) = true := by decide +kernel
  exact typed_of_typedB h

/-- Cases of `C32_step` and `C32_reachable`. A history: a data record is added, the file converted and a trailer generated. -/
example : ∃ f, Spec.Reachable f ∧ f.format = .packed ∧ f.bases.length = 1 := by
  obtain ⟨r, hr, hd⟩ : ∃ r, Spec.WellTyped r ∧
      ((((newFile .character).addDataRecord r).1.setType (b! "packed")).1.format = .packed ∧
        (((newFile .character).addDataRecord r).1.setType (b! "packed")).1.bases.length = 1) :=
    ⟨Samples.dataRecord, Samples.dataRecord_typed, by decide +kernel⟩
  have h1 := Spec.Reachable.step (Spec.Reachable.new .character) (op := .addDataRecord r) hr (.addDataRecord r)
  have h2 := Spec.Reachable.step h1 (op := .setType (b! "packed")) trivial (.setType _)
  exact ⟨_, h2, hd⟩

/-- Cases of `C32_refused` and `C32_setRecord`. A header is stored, the one of the other format is refused. -/
example : Spec.Uniform (newFile .packed) ∧ Spec.Step (newFile .packed) (.setRecord (.header .character (Samples.header 0 426))) (newFile .packed) (some .invalidRecord) ∧
    (newFile .packed).setRecord (.header .packed (Samples.header 370 366)) = ({ newFile .packed with header := .header .packed (Samples.header 370 366) }, none) :=
  ⟨(C32_reachable (.new .packed)).1,
    by have h := Spec.Step.setRecord (f := newFile .packed) (.header .character (Samples.header 0 426))
       rwa [show (newFile .packed).setRecord (.header .character (Samples.header 0 426)) = (newFile .packed, some .invalidRecord) by decide +kernel] at h,
    by decide +kernel⟩

end Metro2
