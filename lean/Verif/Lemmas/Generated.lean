import Verif.Spec.Generated
import Verif.Lemmas.Files
import Verif.Lemmas.PackedText
import Verif.Props.FileRead

/-! Generated trailers. -/

namespace Metro2

theorem toList_length_le {α : Type} (o : Option α) : o.toList.length ≤ 1 := by cases o <;> simp

theorem countSegs_le (g : Segs) (k : SegKind) (p : Seg → Bool) : Spec.countSegs g k p ≤ (Spec.segments g k).length := List.countP_le_length

theorem one_le (p : Prop) [Decidable p] : Spec.one p ≤ 1 := by
  unfold Spec.one
  split <;> omega

theorem weight_le {t : F} (ht : t ∈ Spec.totals) (fs : Fields) (g : Segs) : Spec.weight t fs g ≤ 1 + g.j1.length + g.j2.length := by
  have hj1 : ∀ p, Spec.countSegs g .j1 p ≤ g.j1.length := fun p => countSegs_le g .j1 p
  have hj2 : ∀ p, Spec.countSegs g .j2 p ≤ g.j2.length := fun p => countSegs_le g .j2 p
  have hk1 : ∀ p, Spec.countSegs g .k1 p ≤ 1 := fun p => (countSegs_le g .k1 p).trans (toList_length_le _)
  have hk2 : ∀ p, Spec.countSegs g .k2 p ≤ 1 := fun p => (countSegs_le g .k2 p).trans (toList_length_le _)
  have hk3 : ∀ p, Spec.countSegs g .k3 p ≤ 1 := fun p => (countSegs_le g .k3 p).trans (toList_length_le _)
  have hk4 : ∀ p, Spec.countSegs g .k4 p ≤ 1 := fun p => (countSegs_le g .k4 p).trans (toList_length_le _)
  have hl1 : ∀ p, Spec.countSegs g .l1 p ≤ 1 := fun p => (countSegs_le g .l1 p).trans (toList_length_le _)
  have hn1 : ∀ p, Spec.countSegs g .n1 p ≤ 1 := fun p => (countSegs_le g .n1 p).trans (toList_length_le _)
  unfold Spec.weight
  split
  · omega
  · omega
  · exact (hj1 _).trans (by omega)
  · exact (hj2 _).trans (by omega)
  · have h1 := one_le (Spec.EcoaZ fs)
    have h2 := hj1 fun s => decide (Spec.EcoaZ s.fields)
    have h3 := hj2 fun s => decide (Spec.EcoaZ s.fields)
    omega
  · exact (hn1 _).trans (by omega)
  · exact (hk1 _).trans (by omega)
  · exact (hk2 _).trans (by omega)
  · exact (hk3 _).trans (by omega)
  · exact (hk4 _).trans (by omega)
  · exact (hl1 _).trans (by omega)
  · exact Nat.add_le_add (Nat.add_le_add (one_le _) (hj1 _)) (hj2 _)
  · exact (one_le _).trans (by omega)
  · exact (hj1 _).trans (by omega)
  · exact (hj2 _).trans (by omega)
  · exact Nat.add_le_add (Nat.add_le_add (one_le _) (hj1 _)) (hj2 _)
  · exact (one_le _).trans (by omega)
  · exact (hj1 _).trans (by omega)
  · exact (hj2 _).trans (by omega)
  · exact Nat.add_le_add (Nat.add_le_add (one_le _) (hj1 _)) (hj2 _)
  · split
    · exact (one_le _).trans (by omega)
    · omega

theorem total_le {t : F} (ht : t ∈ Spec.totals) (bases : List Record) : Spec.total t bases ≤ Spec.crowd bases := by
  have h : (bases.map (Spec.weightOf t)).sum ≤ (bases.map Spec.people).sum := by
    induction bases with
    | nil => simp
    | cons r bases ih =>
      simp only [List.map_cons, List.sum_cons]
      refine Nat.add_le_add ?_ ih
      cases r with
      | base e fs g => exact weight_le ht fs g
      | header e fs => exact Nat.le_refl 0
      | trailer e fs => exact Nat.le_refl 0
  unfold Spec.total Spec.crowd
  split <;> omega

/-- What each row of the trailer is. -/
theorem trailer_parts : ∀ p ∈ trailerRecordStruct, p.1 = .RecordDescriptorWord ∨ p.1 = .RecordIdentifier ∨ p.1 ∈ Spec.totals := by
  decide +kernel

theorem trailer_character_row : ∀ p ∈ trailerRecordCharacterFormat, p.1 ∈ Spec.totals → p.2.typ = .numeric ∧ p.2.len = 9 ∧
    (p.2.req = .required → p.1 = .TotalBaseRecords ∨ p.1 = .BlockCount) := by decide +kernel

theorem trailer_packed_row : ∀ p ∈ trailerRecordPackedFormat, p.1 ∈ Spec.totals → p.2.typ = .packedNumber ∧ p.2.len = 5 := by decide +kernel

/-- The generated trailer is well-formed if it has room for the totals. -/
theorem generated_good {f : File} (hb : ∀ r ∈ f.bases, Spec.IsBase f.format r) (hne : f.bases ≠ [])
    (hc : Spec.crowd f.bases < match f.format with | .character => 10 ^ 9 | .packed => 256 ^ 5) :
    ∃ fs, f.generatorTrailer = .ok (.trailer f.format fs) ∧ Spec.GoodTrailer f.format fs ∧
      (∀ t ∈ Spec.totals, fs.get t = some (.int (Spec.total t f.bases))) ∧ fs.get .RecordDescriptorWord = some (.int f.format.recordLength) := by
  obtain ⟨fs, h1, h2, h3, h4, h5⟩ := f.generatorTrailer_spec hb
  have hnd : (fs.map (·.1)).Nodup := by rw [h2.names]; exact layout_trailerCharacter.structNames
  have hrec : fs.int .RecordDescriptorWord = f.format.recordLength := by rw [Fields.int, h3]
  have hbase := total_baseRecords hb
  refine ⟨fs, h1, ⟨h2, ?_, Fields.mem_of_get h4, ?_⟩, h5, h3⟩
  · rintro ⟨k, v⟩ hm - e he
    have hg := Fields.get_of_mem hnd hm
    obtain ⟨d, hd, -⟩ := h2.mem hm
    simp only at he hd ⊢
    rcases trailer_parts _ hd with hk | hk | hk <;> simp only at hk
    · subst hk
      rw [h3] at hg
      cases hg
      have key : ∀ enc : Enc, ∀ p ∈ enc.trailerFormat, p.1 = .RecordDescriptorWord → Spec.Fits p.2 (.int enc.recordLength) := by
        intro enc p hp h
        exact fits_of_fitsB ((by cases enc <;> decide +kernel : ∀ p ∈ enc.trailerFormat, p.1 = .RecordDescriptorWord →
          fitsB p.2 (.int enc.recordLength) = true) p hp h)
      exact key _ _ he rfl
    · subst hk
      rw [h4] at hg
      cases hg
      have key : ∀ enc : Enc, ∀ p ∈ enc.trailerFormat, p.1 = .RecordIdentifier → Spec.Fits p.2 (.str (b! "TRAILER")) := by
        intro enc p hp h
        exact fits_of_fitsB ((by cases enc <;> decide +kernel : ∀ p ∈ enc.trailerFormat, p.1 = .RecordIdentifier →
          fitsB p.2 (.str (b! "TRAILER")) = true) p hp h)
      exact key _ _ he rfl
    · rw [h5 _ hk] at hg
      cases hg
      have hle := total_le hk f.bases
      revert hc he
      cases f.format with
      | character =>
        intro hc he
        obtain ⟨e1, e2, e3⟩ := trailer_character_row _ he hk
        simp only at hc e1 e2 e3
        unfold Spec.Fits
        rw [e1]
        simp only [e2]
        refine ⟨.inl ⟨by omega, by omega⟩, by omega, by omega, fun hq => ?_⟩
        have hpos : 0 < f.bases.length := List.length_pos_iff.2 hne
        rcases e3 hq with rfl | rfl
        · rw [hbase.1]; omega
        · rw [hbase.2]; omega
      | packed =>
        intro hc he
        obtain ⟨e1, e2⟩ := trailer_packed_row _ he hk
        simp only at hc e1 e2
        unfold Spec.Fits
        rw [e1]
        simp only [e2]
        constructor <;> omega
  · show ((Spec.recordLength f.format : Nat) : Int) ≤ fs.int .RecordDescriptorWord
    rw [hrec]
    cases f.format <;> decide

theorem mem_beBytes {c : UInt8} : ∀ {len n : Nat}, c ∈ beBytes len n ↔ ∃ i < len, c = (n / 256 ^ i % 256).toUInt8
  | 0, n => by simp [beBytes]
  | len + 1, n => by
    rw [beBytes, List.mem_cons, mem_beBytes]
    constructor
    · rintro (h | ⟨i, hi, h⟩)
      · exact ⟨len, by omega, h⟩
      · exact ⟨i, by omega, h⟩
    · rintro ⟨i, hi, h⟩
      rcases Nat.lt_or_ge i len with hl | hl
      · exact .inr ⟨i, hl, h⟩
      · obtain rfl : i = len := by omega
        exact .inl h

/-- Which generated trailers contain a line break. -/
theorem trailer_noBreaks {fs : Fields} (h : Spec.GoodTrailer .packed fs) {T : F → Nat}
    (ht : ∀ t ∈ Spec.totals, fs.get t = some (.int (T t))) (hr : fs.get .RecordDescriptorWord = some (.int 366)) :
    Spec.NoBreaks (Record.trailer .packed fs).string ↔ ∀ t ∈ Spec.totals, Spec.NoBreakBytes (T t) := by
  have hnd : (fs.map (·.1)).Nodup := by rw [h.typed.names]; exact layout_trailerCharacter.structNames
  have hfull : ∀ t ∈ Spec.totals, ∃ e, (t, e) ∈ trailerRecordPackedFormat := by
    have : ∀ t ∈ Spec.totals, t ∈ trailerRecordPackedFormat.map (·.1) := by decide +kernel
    intro t ht
    obtain ⟨⟨k, e⟩, h1, rfl⟩ := List.mem_map.1 (this t ht)
    exact ⟨e, h1⟩
  have hL := layout_trailer .packed
  have htext : ∀ t ∈ Spec.totals, ∀ e, (t, e) ∈ trailerRecordPackedFormat → e.omitted = false →
      toStr e (fs.get t) = beBytes 5 (T t) := by
    intro t hm e he ho
    obtain ⟨e1, e2⟩ := trailer_packed_row _ he hm
    simp only at e1 e2
    rw [ht t hm, toStr_some (by simp [ho])]
    simp only [valText, e1, e2]
    rw [packedNumberString_nonneg (by omega), Int.toNat_natCast]
  constructor
  · intro hn t hm
    obtain ⟨e, he⟩ := hfull t hm
    have hb : t ≠ .BlockDescriptorWord := by rintro rfl; revert hm; decide +kernel
    have hrow := hL.mem_main he hb
    obtain ⟨-, -, ho⟩ := hL.main.2.2 _ hrow
    intro i hi
    have hmem : ((T t) / 256 ^ i % 256).toUInt8 ∈ beBytes 5 (T t) := mem_beBytes.2 ⟨i, hi, rfl⟩
    rw [← htext t hm e he ho] at hmem
    have hin : ((T t) / 256 ^ i % 256).toUInt8 ∈ (Record.trailer .packed fs).string := by
      rw [Record.string, padTo, hL.text_plain (trailer_noBdwRow _)]
      exact List.mem_append_left _ (List.mem_flatten.2 ⟨_, List.mem_map.2 ⟨_, hrow, rfl⟩, hmem⟩)
    have hlt : (T t) / 256 ^ i % 256 < 256 := Nat.mod_lt _ (by decide)
    have := hn _ hin
    generalize (T t) / 256 ^ i % 256 = m at this hlt
    constructor <;> rintro rfl
    · exact this.2 (by decide)
    · exact this.1 (by decide)
  · intro hn
    rw [Record.string]
    apply NoBreaks.padTo
    rw [hL.text_plain (trailer_noBdwRow _)]
    intro c hc
    obtain ⟨s, hsm, hcs⟩ := List.mem_flatten.1 hc
    obtain ⟨⟨k, e⟩, hp, rfl⟩ := List.mem_map.1 hsm
    obtain ⟨h1, h2, ho⟩ := hL.main.2.2 _ hp
    simp only at h1 h2 hcs ho
    cases hg : fs.get k with
    | none => rw [hg] at hcs; exact (plain_fill e).noBreaks c hcs
    | some v =>
      have hm := Fields.mem_of_get hg
      obtain ⟨d, hd, -⟩ := h.typed.mem hm
      rcases trailer_parts _ hd with hk | hk | hk <;> simp only at hk
      · subst hk
        rw [hr] at hcs
        have key : ∀ p ∈ trailerRecordPackedFormat, p.1 = .RecordDescriptorWord → ∀ c ∈ toStr p.2 (some (.int 366)), c ≠ 13 ∧ c ≠ 10 := by
          decide +kernel
        exact key _ h1 rfl c hcs
      · subst hk
        rw [Fields.get_of_mem hnd h.ident] at hcs
        have key : ∀ p ∈ trailerRecordPackedFormat, p.1 = .RecordIdentifier → ∀ c ∈ toStr p.2 (some (.str (b! "TRAILER"))), c ≠ 13 ∧ c ≠ 10 := by
          decide +kernel
        exact key _ h1 rfl c hcs
      · rw [htext k hk e h1 ho] at hcs
        obtain ⟨i, hi, rfl⟩ := mem_beBytes.1 hcs
        have hlt : (T k) / 256 ^ i % 256 < 256 := Nat.mod_lt _ (by decide)
        have := hn k hk i hi
        generalize (T k) / 256 ^ i % 256 = m at this hlt
        constructor <;> intro hc <;> have hc := congrArg UInt8.toNat hc
        · rw [Nat.toUInt8, UInt8.toNat_ofNat', Nat.mod_eq_of_lt hlt] at hc
          exact this.2 hc
        · rw [Nat.toUInt8, UInt8.toNat_ofNat', Nat.mod_eq_of_lt hlt] at hc
          exact this.1 hc

end Metro2
