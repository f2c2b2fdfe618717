import Verif.Lemmas.SegText
import Verif.Spec.Reread

/-! Computable checks for the well-formedness predicates, used for the concrete examples. -/

namespace Metro2

/-- Check for `Spec.Fits`. -/
def fitsB (e : Field) (v : Val) : Bool :=
  match e.typ with
  | .numeric => match v with
    | .int i => decide ((0 ≤ i ∧ i < 10 ^ e.len) ∨ (2 ≤ e.len ∧ 10 ^ (e.len - 2) ≤ -i ∧ -i < 10 ^ (e.len - 1))) &&
        decide (-(2 ^ 63) ≤ i) && decide (i < 2 ^ 63) && (decide (e.req ≠ .required) || decide (i ≠ 0))
    | _ => false
  | .alphanumeric => match v with
    | .str s => decide (s.length ≤ e.len) && s.all (fun c => decide (Spec.Permitted c)) && decide (s.getLast? ≠ some 32)
    | _ => false
  | .timestamp => match v with
    | .time t => decide t.Plain && (decide (e.req ≠ .required) || decide (t ≠ Spec.noTime))
    | _ => false
  | .date => match v with
    | .time t => decide t.Plain && decide t.Midnight && (decide (e.req ≠ .required) || decide (t ≠ Spec.noTime))
    | _ => false
  | .descriptor => match v with
    | .int i => decide (0 ≤ i) && decide (i ≤ 65535)
    | _ => false
  | .packedTimestamp => match v with
    | .time t => decide t.Plain
    | _ => false
  | .packedDate => match v with
    | .time t => decide t.Plain && decide t.Midnight
    | _ => false
  | .packedNumber => match v with
    | .int i => decide (0 ≤ i) && decide (i < 256 ^ e.len)
    | _ => false
  | .alpha => false

theorem fits_of_fitsB {e : Field} {v : Val} (h : fitsB e v = true) : Spec.Fits e v := by
  obtain ⟨st, len, typ, zf, om, req⟩ := e
  unfold fitsB at h
  cases typ <;> cases v <;>
    simp only [Bool.and_eq_true, decide_eq_true_eq, Bool.or_eq_true, Bool.false_eq_true, List.all_eq_true] at h <;>
    simp only [Spec.Fits, Spec.FitsText, spec_plainTime_iff]
  case alphanumeric.str => exact ⟨h.1.1, h.1.2, h.2⟩
  case numeric.int => exact ⟨h.1.1.1, h.1.1.2, h.1.2, fun hr => h.2.resolve_left (by simp [hr])⟩
  case timestamp.time => exact ⟨h.1, fun hr => h.2.resolve_left (by simp [hr])⟩
  case date.time => exact ⟨h.1.1, h.1.2, fun hr => h.2.resolve_left (by simp [hr])⟩
  all_goals exact h

/-- Check for `Spec.FitsAll`. -/
def fitsAllB (fmt : Format) (fs : Fields) : Bool :=
  fs.all fun p => decide (p.1 = .BlockDescriptorWord) || (match fmt.lookup p.1 with
    | some e => fitsB e p.2
    | none => false)

theorem fitsAll_of_fitsAllB {fmt : Format} (hn : (fmt.map (·.1)).Nodup) {fs : Fields}
    (h : fitsAllB fmt fs = true) : Spec.FitsAll fmt fs := by
  intro p hp hb e he
  have := List.all_eq_true.1 h p hp
  simp only [hb, decide_false, Bool.false_or, lookup_of_mem hn he] at this
  exact fits_of_fitsB this

/-- Check for `Fields.Typed`. -/
def typedB : List (F × FieldDecl) → Fields → Bool
  | [], [] => true
  | (f, d) :: ds, (g, v) :: vs => decide (f = g) && v.hasKind d.kind && typedB ds vs
  | _, _ => false

theorem typed_of_typedB {decl : List (F × FieldDecl)} {fs : Fields} (h : typedB decl fs = true) :
    fs.Typed decl := by
  induction decl generalizing fs with
  | nil => cases fs with
    | nil => trivial
    | cons => simp [typedB] at h
  | cons d ds ih => cases fs with
    | nil => simp [typedB] at h
    | cons p ps =>
      simp only [typedB, Bool.and_eq_true, decide_eq_true_eq] at h
      exact ⟨h.1.1, h.1.2, ih h.2⟩

/-- Check for `Spec.SegmentOk`. -/
def segmentOkB (k : SegKind) (s : Seg) : Bool :=
  decide (s.kind = k) && typedB k.struct s.fields && fitsAllB k.format s.fields &&
    decide ((.SegmentIdentifier, .str (Spec.segmentIdent k)) ∈ s.fields) && decide (s.validate = none)

theorem segmentOk_of_B {k : SegKind} {s : Seg} (h : segmentOkB k s = true) : Spec.SegmentOk k s := by
  simp only [segmentOkB, Bool.and_eq_true, decide_eq_true_eq] at h
  exact ⟨h.1.1.1.1, typed_of_typedB h.1.1.1.2, fitsAll_of_fitsAllB (layout_segment k).names h.1.1.2, h.1.2, h.2⟩

/-- Check for `Spec.SegsOk`. -/
def segsOkB (g : Segs) : Bool :=
  g.j1.all (segmentOkB .j1) && g.j2.all (segmentOkB .j2) && g.k1.toList.all (segmentOkB .k1) &&
    g.k2.toList.all (segmentOkB .k2) && g.k3.toList.all (segmentOkB .k3) && g.k4.toList.all (segmentOkB .k4) &&
    g.l1.toList.all (segmentOkB .l1) && g.n1.toList.all (segmentOkB .n1)

theorem segsOk_of_B {g : Segs} (h : segsOkB g = true) : Spec.SegsOk g := by
  simp only [segsOkB, Bool.and_eq_true, List.all_eq_true, Option.mem_toList] at h
  obtain ⟨⟨⟨⟨⟨⟨⟨h1, h2⟩, h3⟩, h4⟩, h5⟩, h6⟩, h7⟩, h8⟩ := h
  exact ⟨fun s hs => segmentOk_of_B (h1 s hs), fun s hs => segmentOk_of_B (h2 s hs),
    fun s hs => segmentOk_of_B (h3 s hs), fun s hs => segmentOk_of_B (h4 s hs),
    fun s hs => segmentOk_of_B (h5 s hs), fun s hs => segmentOk_of_B (h6 s hs),
    fun s hs => segmentOk_of_B (h7 s hs), fun s hs => segmentOk_of_B (h8 s hs)⟩

theorem chars_ascii {s : Bytes} {cs : List Bytes} (hcs : Spec.Chars s cs) :
    Ascii s → ∀ c ∈ cs, c.length = 1 := by
  induction hcs with
  | nil => simp
  | char ch h ih =>
    intro hb c hc
    rcases List.mem_cons.1 hc with rfl | hc
    · rw [← runeWidth_encode ch []]
      cases he : String.utf8EncodeChar ch with
      | nil => exact absurd he (encode_ne_nil ch)
      | cons b bs =>
        have := hb b (by rw [he]; simp)
        rw [List.cons_append, runeWidth_ascii _ this]
    · exact ih (fun b hb' => hb b (List.mem_append_right _ hb')) c hc
  | invalid b hb h ih =>
    intro hb' c hc
    rcases List.mem_cons.1 hc with rfl | hc
    · rfl
    · exact ih (fun b hb'' => hb' b (List.mem_cons_of_mem _ hb'')) c hc

theorem sized_of_fits {e : Field} {v : Val} (h : Spec.Fits e v) : Spec.Sized e v := by
  obtain ⟨st, len, typ, zf, om, req⟩ := e
  cases typ <;> cases v <;> simp only [Spec.Fits] at h <;> simp only [Spec.Sized]
  case alphanumeric.str s =>
    intro cs hcs c hc
    exact chars_ascii hcs (ascii_of_permitted h.2.1) c (List.mem_of_mem_take hc)
  case timestamp.time => exact h.1
  case date.time => exact h.1
  case packedTimestamp.time => exact h
  case packedDate.time => exact h.1

/-- Sufficient check for `Spec.SizedAll`. -/
def sizedAllB (fs : Fields) : Bool := fs.all fun p => match p.2 with
  | .int _ => true
  | .str s => s.all fun c => decide (c.toNat < 128)
  | .time t => decide t.Plain

theorem sizedAll_of_B {fmt : Format} {fs : Fields} (h : sizedAllB fs = true) : Spec.SizedAll fmt fs := by
  intro p hp e _
  have := List.all_eq_true.1 h p hp
  obtain ⟨f, v⟩ := p
  cases v with
  | int i => trivial
  | str s =>
    simp only [List.all_eq_true, decide_eq_true_eq] at this
    intro cs hcs c hc
    exact chars_ascii hcs this c (List.mem_of_mem_take hc)
  | time t =>
    simp only [decide_eq_true_eq] at this
    exact (spec_plainTime_iff t).2 this

/-- Check for `Spec.Regular`. -/
def regularB (fmt : Format) (fs : Fields) : Bool :=
  fs.all fun p => match p.2 with
    | .int i => match fmt.lookup p.1 with
      | some e => decide (¬ e.typ = .numeric ∨ 0 ≤ i ∨ (2 ≤ e.len ∧ 10 ^ (e.len - 2) ≤ -i))
      | none => true
    | .str _ => true
    | .time t => match fmt.lookup p.1 with
      | some e => decide (¬ (e.req = .required ∧ (e.typ = .date ∨ e.typ = .timestamp) ∧ t = Spec.noTime))
      | none => true

theorem regular_of_B {fmt : Format} (hn : (fmt.map (·.1)).Nodup) {fs : Fields} (h : regularB fmt fs = true) :
    Spec.Regular fmt fs := by
  constructor
  · intro p hp e he ht i hi
    have := List.all_eq_true.1 h p hp
    rw [hi] at this
    simp only [lookup_of_mem hn he, decide_eq_true_eq] at this
    exact this.resolve_left (fun hn => hn ht)
  · intro p hp e he hr ht hv
    have := List.all_eq_true.1 h p hp
    rw [hv] at this
    simp only [lookup_of_mem hn he, decide_eq_true_eq] at this
    exact this ⟨hr, ht, trivial⟩

end Metro2
