import Verif.Lemmas.Places
import Verif.Lemmas.Check
import Verif.Lemmas.Totals
import Verif.Props.Tables
import Verif.Props.Samples

/-!
Property C69: every field has a place of its own in the text.
-/

namespace Metro2

open Samples Spec

/-- C69. In each of the 14 layouts the fields stand in the order in which the Go struct declares them, without
overlap. -/
theorem C69_order : ∀ t ∈ layouts, InOrder t.1 t.2.1 := by
  have h : ∀ t ∈ layouts, bdwFirst t.2.1 = true ∧ inOrderB t.1 t.2.1 0 = true := by decide +kernel
  exact fun t ht => inOrder_of_B (C10_names_unique t ht).1 (h t ht).1 (h t ht).2


/-- C69. Two segments of one type that differ in one field only are written with the same length and differ only in the
bytes that the layout gives to this field. -/
theorem C69_segment_write (k : SegKind) (s t : Seg) (hs : SegSized k s) (ht : SegSized k t) (f : F) (e : Field)
    (he : (f, e) ∈ k.format) (h : AgreeBut f s.fields t.fields) : SameOutside e.start e.len s.string t.string := by
  have hf : f ≠ .BlockDescriptorWord := by
    rintro rfl
    have := seg_noBdwRow k
    rw [bdwRows, List.filter_eq_nil_iff] at this
    exact this _ he (by simp)
  have := (layout_segment k).outside hs.typed ht.typed hs.sized ht.sized hf he h
  rw [bdwText_nil (seg_noBdwRow k), Nat.zero_add] at this
  rw [Seg.string, Seg.string, hs.kind, ht.kind]
  exact this

example : SegSized .k2 k2 ∧ SegSized .k2 ⟨.k2, k2.fields.set .PurchasedIndicator (.int 2)⟩ ∧
    AgreeBut .PurchasedIndicator k2.fields (k2.fields.set .PurchasedIndicator (.int 2)) ∧
    k2.string ≠ (⟨.k2, k2.fields.set .PurchasedIndicator (.int 2)⟩ : Seg).string :=
  ⟨⟨rfl, typed_of_typedB (by decide +kernel), sizedAll_of_B (by decide +kernel)⟩,
    ⟨rfl, typed_of_typedB (by decide +kernel), sizedAll_of_B (by decide +kernel)⟩,
    fun _ hg => (get_set_other hg _).symm, by decide +kernel⟩

/-- C69. Two records of one type with the same segments that differ in one field only, not a descriptor word, are written
with the same length and differ only in the bytes that the layout gives to this field, counted from behind the block
descriptor where one is written. -/
theorem C69_record_write (r t : Record) (hty : SameType r t) (hr : WellTyped r) (ht : WellTyped t)
    (hsr : SizedAll (tableOf r) (valuesOf r)) (hst : SizedAll (tableOf t) (valuesOf t)) (hg : segsOf r = segsOf t)
    (f : F) (h1 : f ≠ .BlockDescriptorWord) (h2 : f ≠ .RecordDescriptorWord) (e : Field) (he : (f, e) ∈ tableOf r)
    (h : AgreeBut f (valuesOf r) (valuesOf t)) :
    SameOutside (writeShift r + e.start) e.len r.string t.string := by
  have i1 := AgreeBut.int h fun hc => h1 hc.symm
  have i2 := AgreeBut.int h fun hc => h2 hc.symm
  cases r with
  | header enc a =>
    cases t with
    | header enc' b =>
      simp only [SameType] at hty
      subst hty
      have e1 : tableOf (.header enc a) = enc.headerFormat := by cases enc <;> rfl
      have e2 : tableOf (.header enc b) = enc.headerFormat := by cases enc <;> rfl
      rw [e1] at hsr he
      rw [e2] at hst
      have := (layout_header enc).outside hr ht hsr hst h1 he h
      rw [(blocked_header enc).bdwText_len hr] at this
      rw [Record.string, Record.string, headerBlockSize, headerBlockSize]
      simp only [valuesOf] at i1 i2
      rw [i1, i2]
      exact SameOutside.padTo this _
    | base => exact hty.elim
    | trailer => exact hty.elim
  | base enc a g =>
    cases t with
    | header => exact hty.elim
    | base enc' b g' =>
      simp only [SameType] at hty
      subst hty
      simp only [segsOf] at hg
      subst hg
      have e1 : tableOf (.base enc a g) = enc.baseFormat := by cases enc <;> rfl
      have e2 : tableOf (.base enc b g) = enc.baseFormat := by cases enc <;> rfl
      rw [e1] at hsr he
      rw [e2] at hst
      have := (layout_base enc).outside hr ht hsr hst h1 he h
      rw [(blocked_base enc).bdwText_len hr] at this
      have hb : baseBlockSize enc a = baseBlockSize enc b := by
        simp only [valuesOf] at i1 i2
        unfold baseBlockSize
        rw [i1, i2]
      rw [Record.string, Record.string, hb]
      exact SameOutside.padTo (SameOutside.append this _) _
    | trailer => exact hty.elim
  | trailer enc a =>
    cases t with
    | header => exact hty.elim
    | base => exact hty.elim
    | trailer enc' b =>
      simp only [SameType] at hty
      subst hty
      have e1 : tableOf (.trailer enc a) = enc.trailerFormat := by cases enc <;> rfl
      have e2 : tableOf (.trailer enc b) = enc.trailerFormat := by cases enc <;> rfl
      rw [e1] at hsr he
      rw [e2] at hst
      have := (layout_trailer enc).outside hr ht hsr hst h1 he h
      rw [bdwText_nil (trailer_noBdwRow enc)] at this
      rw [Record.string, Record.string]
      simp only [valuesOf] at i2
      rw [i2]
      exact SameOutside.padTo this _

example : let r := Record.base .packed (base 370 366) segs
    let t := Record.base .packed ((base 370 366).set .CreditLimit (.int 77)) segs
    WellTyped r ∧ WellTyped t ∧ SizedAll (tableOf r) (valuesOf r) ∧ SizedAll (tableOf t) (valuesOf t) ∧
    AgreeBut .CreditLimit (valuesOf r) (valuesOf t) ∧ writeShift r = 4 ∧ r.string ≠ t.string :=
  ⟨typed_of_typedB (by decide +kernel), typed_of_typedB (by decide +kernel), sizedAll_of_B (by decide +kernel),
    sizedAll_of_B (by decide +kernel), fun _ hg => (get_set_other hg _).symm, by decide +kernel, by decide +kernel⟩

/-- C69. Two segments of one type that are read from texts with the same bytes in the place of a field have the same value
in this field, whatever the other bytes are. -/
theorem C69_segment_read (k : SegKind) (isVar : Bool) (a b s t : Seg) (rec rec' : Bytes) (n n' : Nat)
    (ha : a.kind = k ∧ a.fields.Typed k.struct) (hb : b.kind = k ∧ b.fields.Typed k.struct)
    (h1 : a.parse rec isVar = (s, .ok n)) (h2 : b.parse rec' isVar = (t, .ok n')) (f : F) (e : Field)
    (he : (f, e) ∈ k.format) (h : SameInside e.start e.len rec rec') : s.fields.get f = t.fields.get f := by
  obtain ⟨rfl, hta⟩ := ha
  obtain ⟨hk, htb⟩ := hb
  have key : ∀ {a s : Seg} {rec : Bytes} {n : Nat}, a.fields.Typed a.kind.struct → a.parse rec isVar = (s, .ok n) →
      s.fields.Typed a.kind.struct ∧ SlotsOk a.kind.format rec 0 (noBdw s.fields) := by
    intro a s rec n ht h
    have hs := (seg_parse_safe (s := a) ht rec isVar).2.1
    rw [h] at hs
    refine ⟨hs, slots_noBdw (parseLoop_inv ?_ (seg_parse_ok h).2.2.2)⟩
    intro p hp
    obtain ⟨d, hd⟩ := mem_decl_of_typed ht hp
    exact seg_noBdw a.kind _ hd
  have k1 := key hta h1
  have k2 := key (hk ▸ htb) h2
  rw [hk] at k2
  have hf : f ≠ .BlockDescriptorWord := by
    rintro rfl
    have := seg_noBdwRow a.kind
    rw [bdwRows, List.filter_eq_nil_iff] at this
    exact this _ he (by simp)
  exact slots_get k1.1 k2.1 k1.2 k2.2 hf (lookup_of_mem (layout_segment _).names he) (by rw [Nat.zero_add]; exact h)

example : let x := k2.string
    let y := (⟨.k2, k2.fields.set .PurchasedIndicator (.int 2)⟩ : Seg).string
    ((Seg.new .k2).parse x true).2 = .ok 34 ∧ ((Seg.new .k2).parse y true).2 = .ok 34 ∧
    SameInside 3 30 x y ∧ x ≠ y := by
  refine ⟨by decide +kernel, by decide +kernel, ?_, by decide +kernel⟩
  have h : ∀ p < 33, 3 ≤ p → k2.string[p]? =
      (⟨.k2, k2.fields.set .PurchasedIndicator (.int 2)⟩ : Seg).string[p]? := by decide +kernel
  exact fun p h1 h2 => h p h2 h1

/-- C69. Two records of one type that are read from texts with the same bytes in the place of a field have the same value in
this field, whatever the other bytes and the old contents of the records are. -/
theorem C69_record_read (isVar : Bool) (a b r t : Record) (rec rec' : Bytes) (n n' : Int) (hty : SameType a b)
    (ha : WellTyped a) (hb : WellTyped b) (h1 : a.parse rec isVar = (r, .ok n)) (h2 : b.parse rec' isVar = (t, .ok n'))
    (f : F) (hf : f ≠ .BlockDescriptorWord) (e : Field) (he : (f, e) ∈ tableOf a)
    (h : SameInside (readShift isVar a + e.start) e.len rec rec') : (valuesOf r).get f = (valuesOf t).get f := by
  cases a with
  | header enc a =>
    cases b with
    | header enc' b =>
      simp only [SameType] at hty
      subst hty
      simp only [Record.parse, Prod.mk.injEq] at h1 h2
      obtain ⟨rfl, h1⟩ := h1
      obtain ⟨rfl, h2⟩ := h2
      have k1 := header_slots ha (Prod.ext rfl h1)
      have k2 := header_slots hb (Prod.ext rfl h2)
      have e1 : tableOf (.header enc a) = enc.headerFormat := by cases enc <;> rfl
      have e2 : readShift isVar (.header enc b) = readShift isVar (.header enc a) := by cases enc <;> rfl
      rw [e1] at he
      rw [e2] at k2
      exact slots_get k1.1 k2.1 k1.2 k2.2 hf (lookup_of_mem (layout_header enc).names he) h
    | base => exact hty.elim
    | trailer => exact hty.elim
  | base enc a g =>
    cases b with
    | header => exact hty.elim
    | base enc' b g' =>
      simp only [SameType] at hty
      subst hty
      cases enc with
      | character =>
        simp only [Record.parse, Prod.mk.injEq] at h1 h2
        obtain ⟨rfl, h1⟩ := h1
        obtain ⟨rfl, h2⟩ := h2
        have k1 := baseCharacter_slots ha (Prod.ext rfl h1)
        have k2 := baseCharacter_slots hb (Prod.ext rfl h2)
        exact slots_get k1.1 k2.1 k1.2 k2.2 hf (lookup_of_mem layout_baseCharacter.names he) h
      | packed =>
        simp only [Record.parse, Prod.mk.injEq] at h1 h2
        obtain ⟨rfl, h1⟩ := h1
        obtain ⟨rfl, h2⟩ := h2
        have k1 := basePacked_slots ha (Prod.ext rfl h1)
        have k2 := basePacked_slots hb (Prod.ext rfl h2)
        exact slots_get k1.1 k2.1 k1.2 k2.2 hf (lookup_of_mem layout_basePacked.names he) h
    | trailer => exact hty.elim
  | trailer enc a =>
    cases b with
    | header => exact hty.elim
    | base => exact hty.elim
    | trailer enc' b =>
      simp only [SameType] at hty
      subst hty
      simp only [Record.parse, Prod.mk.injEq] at h1 h2
      obtain ⟨rfl, h1⟩ := h1
      obtain ⟨rfl, h2⟩ := h2
      have k1 := trailer_slots ha (Prod.ext rfl h1)
      have k2 := trailer_slots hb (Prod.ext rfl h2)
      have e1 : tableOf (.trailer enc a) = enc.trailerFormat := by cases enc <;> rfl
      rw [e1] at he
      exact slots_get k1.1 k2.1 k1.2 k2.2 hf (lookup_of_mem (layout_trailer enc).names he) h

example : let x := (Record.base .character (base 0 426) {}).string
    let y := (Record.base .character ((base 0 426).set .ConsumerAccountNumber (.str (b! "9"))) {}).string
    ((newBase .character).parse x false).2 = .ok 426 ∧ ((newBase .character).parse y false).2 = .ok 426 ∧
    (∀ p < 40, x[p]? = y[p]?) ∧ x ≠ y ∧
    readShift false (newBase .character) = 0 ∧ readShift true (newBase .character) = 4 := by
  decide +kernel

/-- Case of `C69_order`: two fields of the K2 segment that follow each other. -/
example : (k2SegmentFormat.lookup .PurchasedIndicator).map (·.start) = some 2 ∧ (k2SegmentFormat.lookup .PurchasedName).map (·.start) = some 3 := by
  decide +kernel

end Metro2
