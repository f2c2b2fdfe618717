import Verif.Lemmas.ParseInt
import Verif.Spec.Layout

/-! Generic facts about layout tables, `fieldsString` and `parseLoop`. -/

namespace Metro2

/-! ### toSpecifications -/

theorem specInsert_perm (a : F × Field) (l : Format) : (specInsert a l).Perm (a :: l) := by
  induction l with
  | nil => exact .refl _
  | cons b l ih =>
    unfold specInsert
    split
    · exact (List.Perm.cons b ih).trans (List.Perm.swap a b l)
    · exact .refl _

theorem toSpecifications_perm (fmt : Format) : (toSpecifications fmt).Perm fmt := by
  unfold toSpecifications
  induction fmt with
  | nil => exact .refl _
  | cons a l ih => exact (specInsert_perm a _).trans (List.Perm.cons a ih)

/-! ### The rows of a table -/

/-- The rows follow each other without gap from `acc` to `L`. -/
def contig : Nat → Format → Nat → Bool
  | acc, [], L => acc = L
  | acc, p :: ps, L => p.2.start = acc && contig (acc + p.2.len) ps L

/-- The block descriptor row, if any. -/
def bdwRows (fmt : Format) : Format := fmt.filter fun p => decide (p.1 = .BlockDescriptorWord)

/-- All facts about a table and its struct that the proofs need; decided for each table. -/
structure Layout (fmt : Format) (decl : List (F × FieldDecl)) (L : Nat) : Prop where
  names : (fmt.map (·.1)).Nodup
  structNames : (decl.map (·.1)).Nodup
  sorted : ∃ rows, toSpecifications fmt = bdwRows fmt ++ rows ∧ contig 0 rows L = true ∧
    ∀ p ∈ rows, p.1 ≠ .BlockDescriptorWord ∧ p.2.omitted = false
  bdw : ∀ p ∈ bdwRows fmt, p.2.start = 0 ∧ p.2.len = 4 ∧ p.2.omitted = true ∧ p.2.req ≠ .required ∧
    (p.2.typ = .numeric ∨ p.2.typ = .descriptor)
  hasRow : ∀ p ∈ decl, ∃ e, (p.1, e) ∈ fmt ∧ Spec.WidthOk e = true ∧ Spec.KindOk e p.2.kind = true ∧ 1 ≤ e.len

/-- Rows in field order without the block descriptor. -/
def mainRows (fmt : Format) : Format :=
  (toSpecifications fmt).filter fun p => decide (p.1 ≠ .BlockDescriptorWord)

/-- Boolean version of `Layout`. -/
def layoutCheck (fmt : Format) (decl : List (F × FieldDecl)) (L : Nat) : Bool :=
  decide (fmt.map (·.1)).Nodup && decide (decl.map (·.1)).Nodup &&
  decide (toSpecifications fmt = bdwRows fmt ++ mainRows fmt) && contig 0 (mainRows fmt) L &&
  (mainRows fmt).all (fun p => decide (p.1 ≠ .BlockDescriptorWord) && decide (p.2.omitted = false)) &&
  (bdwRows fmt).all (fun p => decide (p.2.start = 0 ∧ p.2.len = 4 ∧ p.2.omitted = true ∧
    p.2.req ≠ .required ∧ (p.2.typ = .numeric ∨ p.2.typ = .descriptor))) &&
  decl.all (fun p => match fmt.lookup p.1 with
    | some e => Spec.WidthOk e && Spec.KindOk e p.2.kind && decide (1 ≤ e.len)
    | none => false)

theorem lookup_mem {α β : Type} [DecidableEq α] {l : List (α × β)} {a : α} {b : β}
    (h : l.lookup a = some b) : (a, b) ∈ l := by
  induction l with
  | nil => simp at h
  | cons p l ih =>
    obtain ⟨x, y⟩ := p
    rw [List.lookup_cons] at h
    split at h
    · next hx => simp at hx h; subst hx; subst h; exact List.mem_cons_self
    · exact List.mem_cons_of_mem _ (ih h)

theorem lookup_of_mem {α β : Type} [DecidableEq α] {l : List (α × β)} {a : α} {b : β}
    (hn : (l.map (·.1)).Nodup) (h : (a, b) ∈ l) : l.lookup a = some b := by
  induction l with
  | nil => simp at h
  | cons p l ih =>
    obtain ⟨x, y⟩ := p
    rw [List.map_cons, List.nodup_cons] at hn
    rw [List.lookup_cons]
    rcases List.mem_cons.1 h with h | hm
    · simp only [Prod.mk.injEq] at h
      rw [← h.1, ← h.2]; simp
    · have : a ≠ x := by
        rintro rfl
        exact hn.1 (List.mem_map.2 ⟨(a, b), hm, rfl⟩)
      rw [show (a == x) = false by simpa using this]
      exact ih hn.2 hm

theorem Layout.ofCheck {fmt : Format} {decl : List (F × FieldDecl)} {L : Nat}
    (h : layoutCheck fmt decl L = true) : Layout fmt decl L := by
  simp only [layoutCheck, Bool.and_eq_true, decide_eq_true_eq, List.all_eq_true] at h
  obtain ⟨⟨⟨⟨⟨⟨h1, h2⟩, h3⟩, h4⟩, h5⟩, h6⟩, h7⟩ := h
  refine ⟨h1, h2, ⟨_, h3, h4, h5⟩, h6, ?_⟩
  intro p hp
  have := h7 p hp
  split at this
  · next e he =>
    simp only [Bool.and_eq_true, decide_eq_true_eq] at this
    exact ⟨e, lookup_mem he, this.1.1, this.1.2, this.2⟩
  · simp at this

/-! ### Typed structs -/

theorem zeroFields_typed (decl : List (F × FieldDecl)) : (zeroFields decl).Typed decl := by
  induction decl with
  | nil => trivial
  | cons d ds ih =>
    refine ⟨rfl, ?_, ih⟩
    cases d.2.kind <;> rfl

theorem Fields.Typed.names {decl : List (F × FieldDecl)} {fs : Fields} (h : fs.Typed decl) :
    fs.map (·.1) = decl.map (·.1) := by
  induction decl generalizing fs with
  | nil => cases fs with
    | nil => rfl
    | cons => exact h.elim
  | cons d ds ih => cases fs with
    | nil => exact h.elim
    | cons p ps =>
      obtain ⟨h1, h2, h3⟩ := h
      simp [ih h3, h1]

theorem Fields.Typed.mem {decl : List (F × FieldDecl)} {fs : Fields} (h : fs.Typed decl) {f : F} {v : Val}
    (hm : (f, v) ∈ fs) : ∃ d, (f, d) ∈ decl ∧ v.hasKind d.kind = true := by
  induction decl generalizing fs with
  | nil => cases fs with
    | nil => simp at hm
    | cons => exact h.elim
  | cons d ds ih => cases fs with
    | nil => exact h.elim
    | cons p ps =>
      obtain ⟨h1, h2, h3⟩ := h
      rcases List.mem_cons.1 hm with rfl | hm
      · exact ⟨d.2, by simp only at h1; rw [← h1]; exact List.mem_cons_self, h2⟩
      · obtain ⟨d', h4, h5⟩ := ih h3 hm
        exact ⟨d', List.mem_cons_of_mem _ h4, h5⟩

theorem Fields.get_of_mem {fs : Fields} (hn : (fs.map (·.1)).Nodup) {f : F} {v : Val} (h : (f, v) ∈ fs) :
    fs.get f = some v := lookup_of_mem hn h

theorem Fields.mem_of_get {fs : Fields} {f : F} {v : Val} (h : fs.get f = some v) : (f, v) ∈ fs :=
  lookup_mem h

theorem Fields.get_none {fs : Fields} {f : F} (h : f ∉ fs.map (·.1)) : fs.get f = none := by
  cases hg : fs.get f with
  | none => rfl
  | some v => exact absurd (List.mem_map.2 ⟨(f, v), Fields.mem_of_get hg, rfl⟩) h

theorem Fields.Typed.get {decl : List (F × FieldDecl)} (hn : (decl.map (·.1)).Nodup) {fs : Fields}
    (h : fs.Typed decl) {f : F} {d : FieldDecl} (hd : (f, d) ∈ decl) :
    ∃ v, fs.get f = some v ∧ v.hasKind d.kind = true := by
  have hm : f ∈ fs.map (·.1) := by rw [h.names]; exact List.mem_map.2 ⟨_, hd, rfl⟩
  obtain ⟨⟨f', v⟩, hp, rfl⟩ := List.mem_map.1 hm
  obtain ⟨d', hd', hk⟩ := h.mem hp
  have : d = d' := by
    have := lookup_of_mem hn hd
    rw [lookup_of_mem hn hd'] at this
    simpa using this.symm
  subst this
  exact ⟨v, Fields.get_of_mem (by rw [h.names]; exact hn) hp, hk⟩

/-! ### The text of a table -/

/-- Text of the rows. -/
def rowsText (rows : Format) (fs : Fields) : Bytes :=
  (rows.map fun p => toStr p.2 (fs.get p.1)).flatten

theorem fieldsString_eq (fmt : Format) (fs : Fields) :
    fieldsString fmt fs = rowsText (toSpecifications fmt) fs := rfl

/-- When every row is written in its width, contiguous rows can be cut out of the text. -/
theorem rowsText_contig {rows : Format} {fs : Fields} {acc L : Nat} (hc : contig acc rows L = true)
    (hl : ∀ p ∈ rows, (toStr p.2 (fs.get p.1)).length = p.2.len) :
    (rowsText rows fs).length + acc = L ∧
    ∀ p ∈ rows, acc ≤ p.2.start ∧ p.2.start + p.2.len ≤ L ∧
      ∀ rest, ((rowsText rows fs ++ rest).drop (p.2.start - acc)).take p.2.len = toStr p.2 (fs.get p.1) := by
  induction rows generalizing acc with
  | nil =>
    simp only [contig, decide_eq_true_eq] at hc
    simp [rowsText, hc]
  | cons r rows ih =>
    simp only [contig, Bool.and_eq_true, decide_eq_true_eq] at hc
    obtain ⟨hs, hc⟩ := hc
    have hr := hl r List.mem_cons_self
    obtain ⟨h1, h2⟩ := ih hc fun p hp => hl p (List.mem_cons_of_mem _ hp)
    have he : rowsText (r :: rows) fs = toStr r.2 (fs.get r.1) ++ rowsText rows fs := rfl
    refine ⟨by rw [he, List.length_append, hr]; omega, ?_⟩
    intro p hp
    rcases List.mem_cons.1 hp with rfl | hp
    · refine ⟨by omega, by omega, fun rest => ?_⟩
      rw [hs, Nat.sub_self, List.drop_zero, he, List.append_assoc, List.take_append_of_le_length (by omega),
        List.take_of_length_le (by omega)]
    · obtain ⟨h3, h4, h5⟩ := h2 p hp
      refine ⟨by omega, h4, fun rest => ?_⟩
      rw [he, List.append_assoc, show p.2.start - acc = r.2.len + (p.2.start - (acc + r.2.len)) by omega,
        ← List.drop_drop, ← hr, List.drop_left]
      rw [← hr] at h5
      exact h5 rest

/-! ### parseLoop -/

/-- Every field's bytes are accepted and give the value. -/
def SlotsOk (fmt : Format) (rec : Bytes) (off : Nat) (fs : Fields) : Prop :=
  ∀ p ∈ fs, p.1 ≠ .BlockDescriptorWord ∧ ∃ e, fmt.lookup p.1 = some e ∧
    e.start + e.len + off ≤ rec.length ∧
    isValidType e p.1 ((rec.drop (e.start + off)).take e.len) = none ∧
    parseValue e ((rec.drop (e.start + off)).take e.len) = .ok p.2

/-- Same names and types. -/
inductive SameShape : Fields → Fields → Prop where
  | nil : SameShape [] []
  | cons {f : F} {v w : Val} {fs gs : Fields} (hv : setVal v w = some w) (h : SameShape fs gs) :
      SameShape ((f, v) :: fs) ((f, w) :: gs)

theorem setVal_of_kind {v w : Val} {k : Kind} (hv : v.hasKind k = true) (hw : w.hasKind k = true) :
    setVal v w = some w := by
  cases v <;> cases w <;> cases k <;> simp_all [setVal, Val.hasKind]

theorem SameShape.ofTyped {decl : List (F × FieldDecl)} {fs gs : Fields} (hf : fs.Typed decl)
    (hg : gs.Typed decl) : SameShape fs gs := by
  induction decl generalizing fs gs with
  | nil =>
    cases fs with
    | nil => cases gs with
      | nil => exact .nil
      | cons => exact hg.elim
    | cons => exact hf.elim
  | cons d ds ih =>
    cases fs with
    | nil => exact hf.elim
    | cons p fs => cases gs with
      | nil => exact hg.elim
      | cons q gs =>
        obtain ⟨f, v⟩ := p
        obtain ⟨g, w⟩ := q
        obtain ⟨h1, h2, h3⟩ := hf
        obtain ⟨h4, h5, h6⟩ := hg
        have : f = g := h1.symm.trans h4
        subst this
        exact .cons (setVal_of_kind h2 h5) (ih h3 h6)

theorem slice_of_le {s : Bytes} {a b : Nat} (h1 : a ≤ b) (h2 : b ≤ s.length) :
    slice s a b = some ((s.drop a).take (b - a)) := if_pos ⟨h1, h2⟩

theorem sliceFrom_of_le {s : Bytes} {a : Int} (h1 : 0 ≤ a) (h2 : a ≤ s.length) :
    sliceFrom s a = some (s.drop a.toNat) := if_pos ⟨h1, h2⟩

/-- The loop body with the slice expression evaluated. -/
theorem parseLoop_cons (fmt : Format) (bdw : BdwPolicy) (bounds : Bool) (rec : Bytes) (off : Nat) (f : F) (v : Val)
    (rest : Fields) : parseLoop fmt bdw bounds rec off ((f, v) :: rest) =
    match fmt.lookup f with
    | none => ((f, v) :: rest, some (.invalidValue f))
    | some e =>
      if rec.length < e.start + e.len + off then
        ((f, v) :: rest, some (if bounds then .segmentLength else .panic))
      else
        let data := (rec.drop (e.start + off)).take e.len
        match isValidType e f data with
        | some err => ((f, v) :: rest, some err)
        | none =>
          match parseValue e data with
          | .error err => ((f, v) :: rest, some err)
          | .ok new =>
            match f, bdw with
            | .BlockDescriptorWord, .skip =>
              let r := parseLoop fmt bdw bounds rec off rest
              ((f, v) :: r.1, r.2)
            | .BlockDescriptorWord, .fail => ((f, v) :: rest, some .blockDescriptorWord)
            | .BlockDescriptorWord, .accept =>
              match setVal v new with
              | none => ((f, v) :: rest, some .panic)
              | some w =>
                let r := parseLoop fmt bdw bounds rec (off + 4) rest
                ((f, w) :: r.1, r.2)
            | _, _ =>
              match setVal v new with
              | none => ((f, v) :: rest, some .panic)
              | some w =>
                let r := parseLoop fmt bdw bounds rec off rest
                ((f, w) :: r.1, r.2) := by
  rw [parseLoop]
  cases fmt.lookup f with
  | none => rfl
  | some e =>
    simp only
    by_cases hl : rec.length < e.start + e.len + off
    · rw [if_pos hl]
      cases bounds
      · rw [if_neg (by simp)]
        rw [slice, if_neg (by omega)]
        rfl
      · rw [if_pos ⟨rfl, hl⟩]; rfl
    · rw [if_neg hl, if_neg (fun h => hl h.2), slice_of_le (by omega) (by omega),
        show e.start + e.len + off - (e.start + off) = e.len by omega]
      rfl

theorem parseLoop_step {fmt : Format} {pol : BdwPolicy} {bounds : Bool} {rec : Bytes} {off : Nat} {f : F}
    {v w : Val} {e : Field} {rest : Fields} (hf : f ≠ .BlockDescriptorWord) (he : fmt.lookup f = some e)
    (hlen : e.start + e.len + off ≤ rec.length)
    (hv : isValidType e f ((rec.drop (e.start + off)).take e.len) = none)
    (hp : parseValue e ((rec.drop (e.start + off)).take e.len) = .ok w) (hs : setVal v w = some w) :
    parseLoop fmt pol bounds rec off ((f, v) :: rest) =
      ((f, w) :: (parseLoop fmt pol bounds rec off rest).1, (parseLoop fmt pol bounds rec off rest).2) := by
  rw [parseLoop_cons]
  simp only [he]
  rw [if_neg (by omega)]
  simp only [hv, hp]
  cases f <;> first | exact absurd rfl hf | simp only [hs]

theorem parseLoop_ok {fmt : Format} {pol : BdwPolicy} {bounds : Bool} {rec : Bytes} {off : Nat}
    {old new : Fields} (hsh : SameShape old new) (hok : SlotsOk fmt rec off new) :
    parseLoop fmt pol bounds rec off old = (new, none) := by
  induction hsh with
  | nil => rfl
  | cons hv h ih =>
    obtain ⟨h1, e, h2, h3, h4, h5⟩ := hok _ List.mem_cons_self
    rw [parseLoop_step h1 h2 h3 h4 h5 hv, ih fun p hp => hok p (List.mem_cons_of_mem _ hp)]

end Metro2
