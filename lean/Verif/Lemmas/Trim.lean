import Verif.Spec.Trim
import Verif.Lemmas.Validate
import Verif.Lemmas.WellFormed
import Verif.Lemmas.Exact

/-! Blanks at the end of texts are not visible in the text of a record. -/

namespace Metro2

theorem TrimsText.refl {s : Bytes} (h : s.getLast? ≠ some 32) : Spec.TrimsText s s := ⟨0, by simp, h⟩

/-- A text without a blank at its end is its own trimmed form. -/
theorem TrimsText.eq_of_last {s t : Bytes} (h : Spec.TrimsText s t) (hs : s.getLast? ≠ some 32) : t = s := by
  obtain ⟨n, rfl, -⟩ := h
  cases n with
  | zero => simp
  | succ n =>
    exfalso
    apply hs
    rw [List.getLast?_append, List.getLast?_replicate]
    simp

theorem TrimsText.eq_nil_iff {s t : Bytes} (h : Spec.TrimsText s t) : t = [] ↔ Spec.AllBlank s := by
  obtain ⟨n, rfl, hl⟩ := h
  constructor
  · rintro rfl c hc
    rw [List.nil_append] at hc
    exact List.eq_of_mem_replicate hc
  · intro hb
    cases hg : t.getLast? with
    | none => simpa using hg
    | some c =>
      have hm := List.mem_of_getLast? hg
      have := hb c (List.mem_append_left _ hm)
      exact absurd (hg.trans (congrArg some this)) hl

theorem TrimsAll.rel {fs ft : Fields} (h : Spec.TrimsAll fs ft) (f : F) :
    (fs.get f = none ∧ ft.get f = none) ∨ ∃ v w, fs.get f = some v ∧ ft.get f = some w ∧ Spec.Trims v w := by
  induction h with
  | nil => exact .inl ⟨rfl, rfl⟩
  | @cons p q fs ft hpq h ih =>
    obtain ⟨a, v⟩ := p
    obtain ⟨b, w⟩ := q
    obtain ⟨hab, hvw⟩ := hpq
    simp only at hab hvw
    subst hab
    by_cases hf : f = a
    · subst hf
      exact .inr ⟨v, w, by simp [Fields.get], by simp [Fields.get], hvw⟩
    · have h1 : Fields.get ((a, v) :: fs) f = Fields.get fs f := by
        simp [Fields.get, List.lookup, show (f == a) = false from by simpa using hf]
      have h2 : Fields.get ((a, w) :: ft) f = Fields.get ft f := by
        simp [Fields.get, List.lookup, show (f == a) = false from by simpa using hf]
      rw [h1, h2]
      exact ih

theorem TrimsAll.int {fs ft : Fields} (h : Spec.TrimsAll fs ft) (f : F) : fs.int f = ft.int f := by
  unfold Fields.int
  rcases TrimsAll.rel h f with ⟨h1, h2⟩ | ⟨v, w, h1, h2, h3⟩
  · rw [h1, h2]
  · rw [h1, h2]
    cases v <;> cases w <;> simp_all [Spec.Trims]

theorem TrimsAll.time {fs ft : Fields} (h : Spec.TrimsAll fs ft) (f : F) : fs.time f = ft.time f := by
  unfold Fields.time
  rcases TrimsAll.rel h f with ⟨h1, h2⟩ | ⟨v, w, h1, h2, h3⟩
  · rw [h1, h2]
  · rw [h1, h2]
    cases v <;> cases w <;> simp_all [Spec.Trims]

theorem TrimsAll.str {fs ft : Fields} (h : Spec.TrimsAll fs ft) (f : F) : Spec.TrimsText (fs.str f) (ft.str f) := by
  have hnil : Spec.TrimsText [] [] := ⟨0, rfl, by simp⟩
  unfold Fields.str
  rcases TrimsAll.rel h f with ⟨h1, h2⟩ | ⟨v, w, h1, h2, h3⟩
  · rw [h1, h2]
    exact hnil
  · rw [h1, h2]
    cases v <;> cases w <;> simp_all [Spec.Trims]

theorem trims_kind {v w : Val} (h : Spec.Trims v w) (k : Kind) : v.hasKind k = w.hasKind k := by
  cases v <;> cases w <;> first | (cases k <;> rfl) | exact absurd h (by simp [Spec.Trims])

theorem TrimsAll.typed {fs ft : Fields} (h : Spec.TrimsAll fs ft) {decl : List (F × FieldDecl)} (ht : ft.Typed decl) :
    fs.Typed decl := by
  induction h generalizing decl with
  | nil => exact ht
  | @cons p q fs ft hpq h ih =>
    obtain ⟨a, v⟩ := p
    obtain ⟨b, w⟩ := q
    obtain ⟨hab, hvw⟩ := hpq
    simp only at hab hvw
    subst hab
    cases decl with
    | nil => exact ht.elim
    | cons d decl =>
      obtain ⟨g1, g2, g3⟩ := ht
      refine ⟨g1, ?_, ih g3⟩
      have hk := trims_kind hvw d.2.kind
      first | exact hk.trans g2 | exact hk.symm.trans g2

theorem TrimsAll.typed' {fs ft : Fields} (h : Spec.TrimsAll fs ft) {decl : List (F × FieldDecl)} (ht : fs.Typed decl) :
    ft.Typed decl := by
  induction h generalizing decl with
  | nil => exact ht
  | @cons p q fs ft hpq h ih =>
    obtain ⟨a, v⟩ := p
    obtain ⟨b, w⟩ := q
    obtain ⟨hab, hvw⟩ := hpq
    simp only at hab hvw
    subst hab
    cases decl with
    | nil => exact ht.elim
    | cons d decl =>
      obtain ⟨g1, g2, g3⟩ := ht
      refine ⟨g1, ?_, ih g3⟩
      have hk := trims_kind hvw d.2.kind
      first | exact hk.trans g2 | exact hk.symm.trans g2

/-- A text is written in the same way with and without blanks at its end. -/
theorem fmtLeftStr_trims {n : Nat} {s t : Bytes} (h : Spec.TrimsText s t) (ha : Ascii t) (hl : t.length ≤ n) :
    fmtLeftStr n s = fmtLeftStr n t := by
  obtain ⟨m, rfl, -⟩ := h
  have hs : Ascii (t ++ List.replicate m ' '.toNat.toUInt8) := by
    intro c hc
    rcases List.mem_append.1 hc with hc | hc
    · exact ha c hc
    · rw [List.eq_of_mem_replicate hc]; decide
  have h32 : ' '.toNat.toUInt8 = (32 : UInt8) := by decide
  rw [fmtLeftStr_ascii hs, fmtLeftStr_ascii ha, List.take_append, List.take_of_length_le hl, List.take_replicate, h32,
    List.append_assoc, List.replicate_append_replicate]
  congr 2
  rw [List.length_append, List.length_replicate]
  omega

theorem fieldsString_trims {fmt : Format} {decl : List (F × FieldDecl)} {L : Nat} (hL : Layout fmt decl L) {fs ft : Fields}
    (h : Spec.TrimsAll fs ft) (hf : Spec.FitsAll fmt ft) : fieldsString fmt fs = fieldsString fmt ft := by
  unfold fieldsString
  congr 1
  apply List.map_congr_left
  intro q hq
  have hq' : q ∈ fmt := (toSpecifications_perm fmt).mem_iff.1 hq
  rcases TrimsAll.rel h q.1 with ⟨h1, h2⟩ | ⟨v, w, h1, h2, h3⟩
  · rw [h1, h2]
  · rw [h1, h2]
    cases v with
    | int i => cases w <;> simp_all [Spec.Trims]
    | time t => cases w <;> simp_all [Spec.Trims]
    | str s =>
      cases w with
      | int => simp [Spec.Trims] at h3
      | time => simp [Spec.Trims] at h3
      | str t =>
        simp only [Spec.Trims] at h3
        simp only [toStr, reduceCtorEq, and_false, if_false]
        have hm : (q.1, Val.str t) ∈ ft := lookup_mem h2
        by_cases hb : q.1 = .BlockDescriptorWord
        · obtain ⟨-, -, -, -, ht⟩ := hL.bdw q (by simp [bdwRows, hq', hb])
          unfold valText
          rcases ht with ht | ht <;> rw [ht]
        · have := hf _ hm hb _ hq'
          obtain ⟨f, st, len, typ, zf, om, req⟩ := q
          cases typ <;> simp only [Spec.Fits] at this
          simp only [valText]
          exact fmtLeftStr_trims h3 (ascii_of_permitted this.2.1) this.1

theorem seg_string_trims {k : SegKind} {s t : Seg} (h : Spec.TrimsSeg s t) (hk : t.kind = k) (hf : Spec.FitsAll k.format t.fields) :
    s.string = t.string := by
  subst hk
  unfold Seg.string
  rw [h.1]
  exact fieldsString_trims (layout_segment t.kind) h.2 hf

theorem map_trims {l m : List Seg} (h : List.Forall₂ Spec.TrimsSeg l m) {k : SegKind} (hm : ∀ s ∈ m, Spec.SegmentOk k s) :
    l.map Seg.string = m.map Seg.string := by
  induction h with
  | nil => rfl
  | cons h1 h2 ih =>
    rw [List.map_cons, List.map_cons, ih fun s hs => hm s (List.mem_cons_of_mem _ hs)]
    have := hm _ List.mem_cons_self
    rw [seg_string_trims h1 this.kind this.fits]

theorem option_trims {a b : Option Seg} (h : Option.Rel Spec.TrimsSeg a b) {k : SegKind} (hb : ∀ s, b = some s → Spec.SegmentOk k s) :
    a.toList.map Seg.string = b.toList.map Seg.string := by
  cases h with
  | none => rfl
  | some h =>
    have := hb _ rfl
    simp [seg_string_trims h this.kind this.fits]

theorem segs_string_trims {g h : Segs} (ht : Spec.TrimsSegs g h) (hs : Spec.SegsOk h) : g.string = h.string := by
  unfold Segs.string Segs.list
  simp only [List.map_append, map_trims ht.j1 hs.j1, map_trims ht.j2 hs.j2, option_trims ht.k1 hs.k1, option_trims ht.k2 hs.k2,
    option_trims ht.k3 hs.k3, option_trims ht.k4 hs.k4, option_trims ht.l1 hs.l1, option_trims ht.n1 hs.n1]

theorem base_string_trims {enc : Enc} {fs ft : Fields} {g h : Segs} (hf : Spec.TrimsAll fs ft) (hg : Spec.TrimsSegs g h)
    (hfit : Spec.FitsAll enc.baseFormat ft) (hs : Spec.SegsOk h) :
    (Record.base enc fs g).string = (Record.base enc ft h).string := by
  unfold Record.string
  simp only
  rw [fieldsString_trims (layout_base enc) hf hfit, segs_string_trims hg hs]
  congr 1
  unfold baseBlockSize
  simp only [TrimsAll.int hf]

/-! ### Validity -/

theorem TrimsAll.mem_right {fs ft : Fields} (h : Spec.TrimsAll fs ft) {q : F × Val} (hq : q ∈ ft) :
    ∃ v, (q.1, v) ∈ fs ∧ Spec.Trims v q.2 := by
  induction h with
  | nil => cases hq
  | @cons p r fs ft hpq h ih =>
    rcases List.mem_cons.1 hq with rfl | hq
    · exact ⟨p.2, by rw [← hpq.1]; exact List.mem_cons_self, hpq.2⟩
    · obtain ⟨v, hv, ht⟩ := ih hq
      exact ⟨v, List.mem_cons_of_mem _ hv, ht⟩

theorem TrimsAll.mem_left {fs ft : Fields} (h : Spec.TrimsAll fs ft) {p : F × Val} (hp : p ∈ fs) :
    ∃ w, (p.1, w) ∈ ft ∧ Spec.Trims p.2 w := by
  induction h with
  | nil => cases hp
  | @cons r q fs ft hpq h ih =>
    rcases List.mem_cons.1 hp with rfl | hp
    · exact ⟨q.2, by rw [hpq.1]; exact List.mem_cons_self, hpq.2⟩
    · obtain ⟨v, hv, ht⟩ := ih hp
      exact ⟨v, List.mem_cons_of_mem _ hv, ht⟩

/-- The trimmed values are valid exactly if no required text is blank and the special rules hold. -/
theorem validateLoop_trims {fmt : Format} (hn : (fmt.map (·.1)).Nodup) {c d : F → Option Err} {fs ft : Fields}
    (h : Spec.TrimsAll fs ft) (hv : validateLoop fmt c fs = none) :
    validateLoop fmt d ft = none ↔ Spec.TextsPresent fmt fs ∧ ∀ p ∈ fs, c p.1 = none → d p.1 = none := by
  rw [validateLoop_none] at hv ⊢
  constructor
  · intro hd
    refine ⟨?_, ?_⟩
    · intro f s e hs he hr hb
      obtain ⟨w, hw, ht⟩ := TrimsAll.mem_left h hs
      have h1 := (hd _ hw).1
      cases w with
      | int => cases ht
      | time => cases ht
      | str t =>
        rw [missing, lookup_of_mem hn he] at h1
        have := (TrimsText.eq_nil_iff ht).2 hb
        subst this
        simp [hr, Val.isZero] at h1
    · intro p hp _
      obtain ⟨w, hw, -⟩ := TrimsAll.mem_left h hp
      exact (hd _ hw).2
  · rintro ⟨hp, hc⟩ q hq
    obtain ⟨v, hm, ht⟩ := TrimsAll.mem_right h hq
    refine ⟨?_, hc (q.1, v) hm (hv _ hm).2⟩
    have h1 := (hv _ hm).1
    simp only [missing] at h1 ⊢
    cases hl : fmt.lookup q.1 with
    | none => rfl
    | some e =>
      rw [hl] at h1
      simp only [Bool.and_eq_false_iff, decide_eq_false_iff_not] at h1 ⊢
      by_cases hr : e.req = .required
      · right
        obtain ⟨f, w⟩ := q
        simp only at hl hm ht ⊢
        cases v with
        | int i => cases w <;> first | cases ht | skip
                   exact h1.resolve_left (by simp [hr])
        | time i => cases w <;> first | cases ht | skip
                    exact h1.resolve_left (by simp [hr])
        | str s =>
          cases w with
          | int => cases ht
          | time => cases ht
          | str t =>
            simp only [Val.isZero, decide_eq_false_iff_not]
            intro h0
            exact hp f s e hm (lookup_mem hl) hr ((TrimsText.eq_nil_iff ht).1 h0)
      · left; exact hr

theorem check_none {b : Bool} {f : F} : check b f = none ↔ b = true := by
  unfold check
  split <;> simp_all

/-- A code of a list without trailing blanks is not changed. -/
theorem trims_code {l : List Bytes} (hl : ∀ c ∈ l, c.getLast? ≠ some 32) {s t : Bytes} (h : Spec.TrimsText s t)
    (hs : l.contains s = true) : t = s :=
  TrimsText.eq_of_last h (hl s (by simpa using hs))

theorem parseInt_last {s : Bytes} {i : Int} (h : parseInt s = .ok i) : s.getLast? ≠ some 32 := by
  obtain ⟨⟨ds, n, hne, hd, hs⟩, -⟩ := parseInt_ok_iff.1 h
  have hl : s.getLast? = ds.getLast? := by
    rcases hs with ⟨rfl, -⟩ | ⟨rfl, -⟩ | ⟨rfl, -⟩
    · rfl
    · obtain ⟨c, l, rfl⟩ := List.exists_cons_of_ne_nil hne; rw [List.getLast?_cons_cons]
    · obtain ⟨c, l, rfl⟩ := List.exists_cons_of_ne_nil hne; rw [List.getLast?_cons_cons]
  rw [hl]
  intro h32
  have := hd.1 32 (List.mem_of_getLast? h32)
  revert this
  decide

theorem baseCustom_trims {enc : Enc} {fs ft : Fields} (h : Spec.TrimsAll fs ft)
    (hst : baseCustom enc fs .AccountStatus = none) (f : F) (hf : baseCustom enc fs f = none) :
    baseCustom enc ft f = none ↔
      (f = .PaymentHistoryProfile → (fs.str .PaymentHistoryProfile).getLast? ≠ some 32) ∧
      (f = .IdentificationNumber → validFilledString (ft.str .IdentificationNumber) = false) := by
  have hstr := TrimsAll.str h
  have hint := TrimsAll.int h
  have htime := TrimsAll.time h
  have hstatus : ft.str .AccountStatus = fs.str .AccountStatus := by
    simp only [baseCustom, check_none] at hst
    exact trims_code (by decide +kernel) (hstr .AccountStatus) hst
  have hcode : ∀ {l : List Bytes} {g : F}, (∀ c ∈ l, c.getLast? ≠ some 32) → l.contains (fs.str g) = true →
      l.contains (ft.str g) = true := by
    intro l g hl hs
    rw [trims_code hl (hstr g) hs]
    exact hs
  unfold baseCustom at hf ⊢
  split at hf <;> simp only [check_none, ← hint, ← htime, reduceCtorEq, false_implies, and_true, true_and, forall_const, iff_true] at hf ⊢
  · exact hf
  · simp
  · exact hcode (by decide +kernel) hf
  · rw [Bool.or_eq_true] at hf ⊢
    have hl : (fs.str .TermsDuration).getLast? ≠ some 32 := by
      rcases hf with hf | hf
      · have : ∀ c ∈ termsDurations, c.getLast? ≠ some 32 := by decide +kernel
        exact this _ (by simpa using hf)
      · cases hp : parseInt (fs.str .TermsDuration) with
        | ok i => exact parseInt_last hp
        | error e => rw [hp] at hf; cases hf
    rw [TrimsText.eq_of_last (hstr .TermsDuration) hl]
    exact hf
  · exact hcode (by decide +kernel) hf
  · rw [hstatus]
    split at hf
    · next hr =>
      rw [if_pos hr]
      rw [check_none] at hf ⊢
      exact hcode (by decide +kernel) hf
    · next hr =>
      rw [if_neg hr]
      rw [check_none, decide_eq_true_eq] at hf ⊢
      rw [TrimsText.eq_nil_iff (hstr _), hf]
      intro c hc
      cases hc
  · rw [Bool.and_eq_true, decide_eq_true_eq] at hf ⊢
    constructor
    · rintro ⟨hl, -⟩ h32
      obtain ⟨n, he, h3⟩ := hstr .PaymentHistoryProfile
      have := congrArg List.length he
      rw [List.length_append, List.length_replicate] at this
      have hn : n = 0 := by omega
      subst hn
      rw [List.replicate_zero, List.append_nil] at he
      rw [he] at h32
      exact h3 h32
    · intro hl
      rw [TrimsText.eq_of_last (hstr _) hl]
      exact hf
  · exact hcode (by decide +kernel) hf
  · exact hf
  · have he : ∀ c : Bytes, c.getLast? ≠ some 32 → fs.str .ECOACode = c → ft.str .ECOACode = c := by
      intro c hc h
      rw [TrimsText.eq_of_last (hstr _) (by rw [h]; exact hc), h]
    simp only [Bool.or_eq_true, decide_eq_true_eq] at hf ⊢
    rcases hf with hf | hf | hf
    · exact .inl hf
    · exact .inr (.inl (he _ (by decide) hf))
    · exact .inr (.inr (he _ (by decide) hf))
  · have he : ∀ c : Bytes, c.getLast? ≠ some 32 → fs.str .ECOACode = c → ft.str .ECOACode = c := by
      intro c hc h
      rw [TrimsText.eq_of_last (hstr _) (by rw [h]; exact hc), h]
    simp only [Bool.or_eq_true, decide_eq_true_eq] at hf ⊢
    rcases hf with hf | hf | hf
    · exact .inl hf
    · exact .inr (.inl (he _ (by decide) hf))
    · exact .inr (.inr (he _ (by decide) hf))
  · exact hcode (by decide +kernel) hf
  · exact hcode (by decide +kernel) hf
  · exact hcode (by decide +kernel) hf
  · next h1 h2 h3 h4 h5 h6 h7 h8 h9 h10 h11 h12 h13 h14 =>
    simp only [true_iff]
    exact ⟨fun e => (h7 e).elim, fun e => (h2 e).elim⟩

theorem filled_trims {s t : Bytes} (h : Spec.TrimsText s t) : validFilledString t = true ↔
    Spec.AllBlank s ∨ Spec.FilledThenBlank s := by
  rw [← TrimsText.eq_nil_iff h]
  obtain ⟨n, rfl, hl⟩ := h
  unfold validFilledString
  simp only [Bool.or_eq_true, allByte, List.all_eq_true, beq_iff_eq]
  constructor
  · rintro ((h | h) | h)
    · exact .inr ⟨48, t.length, n, .inl rfl, by rw [← List.eq_replicate_iff.2 ⟨rfl, h⟩]⟩
    · exact .inr ⟨57, t.length, n, .inr rfl, by rw [← List.eq_replicate_iff.2 ⟨rfl, h⟩]⟩
    · left
      cases hg : t.getLast? with
      | none => simpa using hg
      | some c => exact absurd (hg.trans (congrArg some (h c (List.mem_of_getLast? hg)))) hl
  · rintro (rfl | ⟨c, m, k, hc, he⟩)
    · simp
    · have ht : t = List.replicate m c := by
        have h1 := trimRight_append_blanks t n
        have h2 := trimRight_append_blanks (List.replicate m c) k
        have h3 : (List.replicate m c).getLast? ≠ some 32 := by
          rw [List.getLast?_replicate]
          split
          · simp
          · rintro ⟨⟩
            rcases hc with hc | hc <;> exact absurd hc (by decide)
        rw [trimRight_eq_self h3] at h2
        rw [trimRight_eq_self hl] at h1
        exact h1.symm.trans ((congrArg trimRight he).trans h2)
      rcases hc with rfl | rfl
      · left; left; intro d hd; rw [ht] at hd; exact List.eq_of_mem_replicate hd
      · left; right; intro d hd; rw [ht] at hd; exact List.eq_of_mem_replicate hd

theorem segCustom_trims {k : SegKind} {fs ft : Fields} (h : Spec.TrimsAll fs ft) (f : F) (hf : segCustom k fs f = none) :
    segCustom k ft f = none := by
  have hstr := TrimsAll.str h
  have hint := TrimsAll.int h
  have htime := TrimsAll.time h
  have hcode : ∀ {l : List Bytes} {g : F}, (∀ c ∈ l, trimRight c ∈ l) → l.contains (fs.str g) = true →
      l.contains (ft.str g) = true := by
    intro l g hl hs
    obtain ⟨n, he, hl'⟩ := hstr g
    have := hl (fs.str g) (by simpa using hs)
    have h1 := trimRight_append_blanks (ft.str g) n
    rw [trimRight_eq_self hl'] at h1
    have h2 : trimRight (fs.str g) = ft.str g := (congrArg trimRight he).trans h1
    rw [h2] at this
    simpa using this
  have hfill : ∀ {g : F}, validFilledString (fs.str g) = true → validFilledString (ft.str g) = true := by
    intro g hs
    rw [filled_trims (hstr g)]
    unfold validFilledString at hs
    simp only [Bool.or_eq_true, allByte, List.all_eq_true, beq_iff_eq] at hs
    rcases hs with (h | h) | h
    · exact .inr ⟨48, (fs.str g).length, 0, .inl rfl, by rw [List.replicate_zero, List.append_nil]; exact List.eq_replicate_iff.2 ⟨rfl, h⟩⟩
    · exact .inr ⟨57, (fs.str g).length, 0, .inr rfl, by rw [List.replicate_zero, List.append_nil]; exact List.eq_replicate_iff.2 ⟨rfl, h⟩⟩
    · exact .inl h
  have he : toUpper (fs.str .ECOACode) = b! "W" → toUpper (ft.str .ECOACode) = b! "W" := by
    intro hw
    have : (fs.str .ECOACode).getLast? ≠ some 32 := by
      intro h32
      have h1 : (toUpper (fs.str .ECOACode)).getLast? = some (upperByte 32) := by
        rw [toUpper, List.getLast?_map, h32]; rfl
      rw [hw] at h1
      exact absurd h1 (by decide)
    rw [TrimsText.eq_of_last (hstr _) this]
    exact hw
  unfold segCustom at hf ⊢
  split at hf <;> simp only [check_none, ← hint, ← htime] at hf ⊢
  all_goals first
    | exact hf
    | exact hcode (by decide +kernel) hf
    | (simp only [Bool.or_eq_true, decide_eq_true_eq] at hf ⊢
       rcases hf with hf | hf
       · exact .inl hf
       · first | exact .inr (hfill hf) | exact .inr (he hf))

end Metro2
