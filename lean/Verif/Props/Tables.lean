import Verif.Lemmas.NoPanic

/-!
Properties C10 and C11: the layout tables.
-/

namespace Metro2

/-- The 14 layout tables, each with the struct it is used for and the documented length of
the record or segment. -/
def layouts : List (Format × List (F × FieldDecl) × Nat) := [
  (headerRecordCharacterFormat, headerRecordStruct, 426), (headerRecordPackedFormat, headerRecordStruct, 366),
  (baseSegmentCharacterFormat, baseSegmentStruct, 426), (baseSegmentPackedFormat, baseSegmentStruct, 366),
  (trailerRecordCharacterFormat, trailerRecordStruct, 426), (trailerRecordPackedFormat, trailerRecordStruct, 366),
  (j1SegmentFormat, j1SegmentStruct, 100), (j2SegmentFormat, j2SegmentStruct, 200),
  (k1SegmentFormat, k1SegmentStruct, 34), (k2SegmentFormat, k2SegmentStruct, 34),
  (k3SegmentFormat, k3SegmentStruct, 40), (k4SegmentFormat, k4SegmentStruct, 30),
  (l1SegmentFormat, l1SegmentStruct, 54), (n1SegmentFormat, n1SegmentStruct, 146)]

/-- C10. The rows of each table tile the record exactly. -/
theorem C10_tables_tile : ∀ t ∈ layouts, Spec.Tiles t.1 t.2.2 := by
  decide +kernel

/-- C10. No name occurs twice in a table, and a block descriptor row, where there is one, is the optional
four-byte word at the start. -/
theorem C10_names_unique : ∀ t ∈ layouts, (t.1.map (·.1)).Nodup ∧
    ∀ r ∈ t.1, r.1 = .BlockDescriptorWord → r.2.start = 0 ∧ r.2.len = 4 ∧ r.2.omitted = true := by
  decide +kernel

/-- C10. Every struct field has a row, of the type that belongs to the Go type of the field
and of the width that belongs to the type. Only the block descriptor is ever left out
when it is zero, and it is an `int`, so the type assertion in `toString` cannot fail. -/
theorem C10_kinds_match : ∀ t ∈ layouts, ∀ d ∈ t.2.1, ∃ e, (d.1, e) ∈ t.1 ∧
    Spec.KindOk e d.2.kind = true ∧ Spec.WidthOk e = true ∧
    (e.omitted = true → d.1 = .BlockDescriptorWord ∧ d.2.kind = .int) := by
  have h : ∀ t ∈ layouts, ∀ d ∈ t.2.1, ∃ r ∈ t.1, r.1 = d.1 ∧
      Spec.KindOk r.2 d.2.kind = true ∧ Spec.WidthOk r.2 = true ∧
      (r.2.omitted = true → d.1 = .BlockDescriptorWord ∧ d.2.kind = .int) := by decide +kernel
  intro t ht d hd
  obtain ⟨r, hr, h1, h2⟩ := h t ht d hd
  exact ⟨r.2, by rw [← h1]; exact hr, h2⟩

/-- C10. Consequence: whatever the bytes, the offset, the treatment of the block descriptor and the
old contents of the struct, the field loop never meets a struct field without row and never
assigns a value of the wrong Go type (a panic), and what it leaves is a value of the struct. -/
theorem C10_parse_well_typed (t : Format × List (F × FieldDecl) × Nat) (ht : t ∈ layouts)
    (pol : BdwPolicy) (rec : Bytes) (off : Nat) (fs : Fields) (hty : fs.Typed t.2.1) :
    (parseLoop t.1 pol true rec off fs).1.Typed t.2.1 ∧
    (parseLoop t.1 pol true rec off fs).2 ≠ some .panic ∧
    ∀ f, (parseLoop t.1 pol true rec off fs).2 ≠ some (.invalidValue f) := by
  have h := parseLoop_safe (fmt := t.1) (pol := pol) (rec := rec) (off := off) (fs := fs) (decl := t.2.1)
    (bounds := true) (fun d hd => by
      obtain ⟨e, he, h1, h2, -⟩ := C10_kinds_match t ht d hd
      exact ⟨e, lookup_of_mem (C10_names_unique t ht).1 he, h2, h1, by simp⟩) hty
  exact ⟨h.1, fun hc => by simpa [Err.bad] using h.2 _ hc, fun f hc => by simpa [Err.bad] using h.2 _ hc⟩

/-- Cases of `C10_tables_tile`, `C10_names_unique` and `C10_kinds_match`. -/
example : (k1SegmentFormat, k1SegmentStruct, 34) ∈ layouts ∧
    (zeroFields k1SegmentStruct).Typed k1SegmentStruct := ⟨by decide +kernel, zeroFields_typed _⟩

example : (n1SegmentFormat, n1SegmentStruct, 146) ∈ layouts ∧
    (parseLoop n1SegmentFormat .skip true (b! "N1") 0 (zeroFields n1SegmentStruct)).2 = some .segmentLength := by
  decide +kernel

/-- C11. Any order in which the map is iterated and any sorting algorithm give the same
list of rows. -/
theorem C11_order_unique (t : Format × List (F × FieldDecl) × Nat) (ht : t ∈ layouts) (l : Format)
    (hl : Spec.SortOf l t.1) : l = toSpecifications t.1 := by
  have h1 : ∀ t ∈ layouts, ∀ a ∈ t.1, ∀ b ∈ t.1, a = b ∨ Spec.Before a b ∨ Spec.Before b a := by
    decide +kernel
  have h2 : ∀ t ∈ layouts, (toSpecifications t.1).Pairwise fun a b => ¬ Spec.Before b a := by
    decide +kernel
  have hp := toSpecifications_perm t.1
  refine List.Perm.eq_of_pairwise (le := fun a b => ¬ Spec.Before b a) ?_ hl.2 (h2 t ht)
    (hl.1.trans hp.symm)
  intro a b ha hb hab hba
  rcases h1 t ht a (hl.1.mem_iff.1 ha) b (hp.mem_iff.1 hb) with h | h | h
  · exact h
  · exact absurd h hba
  · exact absurd h hab

/-- C11. The model's own order is one of them. -/
theorem C11_order_exists (t : Format × List (F × FieldDecl) × Nat) (ht : t ∈ layouts) :
    Spec.SortOf (toSpecifications t.1) t.1 := by
  have h2 : ∀ t ∈ layouts, (toSpecifications t.1).Pairwise fun a b => ¬ Spec.Before b a := by
    decide +kernel
  exact ⟨toSpecifications_perm _, h2 t ht⟩

/-- C11. The text of a record does not depend on the order in which the map is iterated nor on the sorting
algorithm: writing the rows in any sorted order gives the same bytes. -/
theorem C11_text_order_independent (t : Format × List (F × FieldDecl) × Nat) (ht : t ∈ layouts)
    (l : Format) (hl : Spec.SortOf l t.1) (fs : Fields) :
    (l.map fun p => toStr p.2 (fs.get p.1)).flatten = fieldsString t.1 fs := by
  rw [C11_order_unique t ht l hl]; rfl

theorem specLt_iff (a b : F × Field) : specLt a b = true ↔ Spec.Before a b := by
  unfold specLt Spec.Before
  split
  · next h => simp [h]
  · next h => simp [h]

/-- C11, for the comparison function of the code: whatever order the map is iterated in, a list of the rows in which no row is less
than an earlier one is the same list. -/
theorem C11_comparator (t : Format × List (F × FieldDecl) × Nat) (ht : t ∈ layouts) (l : Format) (hp : l.Perm t.1)
    (hs : l.Pairwise fun a b => specLt b a = false) : l = toSpecifications t.1 := by
  refine C11_order_unique t ht l ⟨hp, hs.imp ?_⟩
  intro a b h hb
  rw [(specLt_iff b a).2 hb] at h
  cases h

theorem notBefore_trans {a b c : F × Field} (h1 : ¬ Spec.Before b a) (h2 : ¬ Spec.Before c b) : ¬ Spec.Before c a := by
  unfold Spec.Before at *
  rintro (h | ⟨h, h'⟩)
  · by_cases h3 : c.2.start < b.2.start
    · exact h2 (Or.inl h3)
    · exact h1 (Or.inl (by omega))
  · by_cases h3 : c.2.start < b.2.start
    · exact h2 (Or.inl h3)
    · by_cases h4 : b.2.start < a.2.start
      · exact h1 (Or.inl h4)
      · by_cases h5 : b.1.name < a.1.name
        · exact h1 (Or.inr ⟨by omega, h5⟩)
        · by_cases h6 : c.1.name < b.1.name
          · exact h2 (Or.inr ⟨by omega, h6⟩)
          · exact List.le_trans (List.not_lt.1 h5) (List.not_lt.1 h6) h'

theorem before_asymm {a b : F × Field} (h : Spec.Before a b) : ¬ Spec.Before b a := by
  unfold Spec.Before at *
  rintro (h' | ⟨h', h''⟩)
  · rcases h with h | ⟨h, -⟩ <;> omega
  · rcases h with h | ⟨-, h⟩
    · omega
    · exact List.lt_asymm h h''

theorem toSpecifications_sorted (l : Format) : (toSpecifications l).Pairwise fun a b => ¬ Spec.Before b a := by
  have hins : ∀ (a : F × Field) (m : Format), (specInsert a m).Perm (a :: m) := by
    intro a m
    induction m with
    | nil => exact .refl _
    | cons b m ih =>
      rw [specInsert]
      split
      · exact (List.Perm.cons b ih).trans (List.Perm.swap a b m)
      · exact .refl _
  have key : ∀ (a : F × Field) (m : Format), (m.Pairwise fun a b => ¬ Spec.Before b a) →
      (specInsert a m).Pairwise fun a b => ¬ Spec.Before b a := by
    intro a m hm
    induction m with
    | nil => exact List.pairwise_singleton _ _
    | cons b m ih =>
      rw [specInsert]
      obtain ⟨h1, h2⟩ := List.pairwise_cons.1 hm
      split
      · next h =>
        refine List.pairwise_cons.2 ⟨fun x hx => ?_, ih h2⟩
        rcases List.mem_cons.1 ((hins a m).mem_iff.1 hx) with rfl | hx
        · exact before_asymm ((specLt_iff _ _).1 h)
        · exact h1 x hx
      · next h =>
        have hba : ¬ Spec.Before b a := fun hb => h ((specLt_iff _ _).2 hb)
        refine List.pairwise_cons.2 ⟨fun x hx => ?_, hm⟩
        rcases List.mem_cons.1 hx with rfl | hx
        · exact hba
        · exact notBefore_trans hba (h1 x hx)
  unfold toSpecifications
  induction l with
  | nil => exact List.Pairwise.nil
  | cons a l ih => exact key a _ ih

/-- C11. The rows come out the same for every order in which the map is iterated. -/
theorem C11_map_order (t : Format × List (F × FieldDecl) × Nat) (ht : t ∈ layouts) (m : Format) (hm : m.Perm t.1) :
    toSpecifications m = toSpecifications t.1 :=
  C11_order_unique t ht _ ⟨(toSpecifications_perm m).trans hm, toSpecifications_sorted m⟩

/-- Cases of `C11_order_unique`, `C11_order_exists`, `C11_text_order_independent` and `C11_comparator`. -/
example : Spec.SortOf (toSpecifications k3SegmentFormat.reverse) k3SegmentFormat :=
  ⟨(toSpecifications_perm _).trans (List.reverse_perm _), by decide +kernel⟩

end Metro2
