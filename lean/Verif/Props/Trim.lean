import Verif.Lemmas.Trim
import Verif.Props.Validate

/-! C29 for records with blanks at the end of texts: exactly which of them are still valid after writing and reading. -/

namespace Metro2

open Samples

/-- C29: a record with blanks at the end of any of its texts, also in segments, is read as the record without them. -/
theorem C29_trimmed (enc : Enc) (isVar : Bool) (fs ft : Fields) (g h : Segs) (hf : Spec.TrimsAll fs ft) (hg : Spec.TrimsSegs g h)
    (hgood : Spec.GoodBase enc isVar ft h) (rest : Bytes) (hr : Spec.NextOk enc ft h rest) :
    (newBase enc).parse ((Record.base enc fs g).string ++ rest) isVar = (.base enc ft h, .ok (Spec.sizeWord isVar fs)) := by
  rw [base_string_trims hf hg hgood.fits hgood.segs, base_reread hgood hr]
  have : Spec.sizeWord isVar fs = Spec.sizeWord isVar ft := by
    unfold Spec.sizeWord Spec.bdw Spec.rdw
    rw [TrimsAll.int hf, TrimsAll.int hf]
  rw [this]

/-- The value without blanks at the end of a text. -/
def trimVal : Val → Val
  | .str s => .str (trimRight s)
  | v => v

theorem trimsAll_map (fs : Fields) : Spec.TrimsAll fs (fs.map fun p => (p.1, trimVal p.2)) := by
  induction fs with
  | nil => exact .nil
  | cons p fs ih =>
    refine .cons ⟨rfl, ?_⟩ ih
    obtain ⟨f, v⟩ := p
    cases v with
    | str s => exact ⟨_, trimRight_spec s, noTrailingBlank_trimRight s⟩
    | int => rfl
    | time => rfl

/-- The segment without blanks at the ends of texts. -/
def trimSeg (s : Seg) : Seg := ⟨s.kind, s.fields.map fun p => (p.1, trimVal p.2)⟩

theorem trimsSeg_map (s : Seg) : Spec.TrimsSeg s (trimSeg s) := ⟨rfl, trimsAll_map _⟩

theorem trimsSegs_map (g : Segs) : Spec.TrimsSegs g ⟨g.j1.map trimSeg, g.j2.map trimSeg, g.k1.map trimSeg, g.k2.map trimSeg,
    g.k3.map trimSeg, g.k4.map trimSeg, g.l1.map trimSeg, g.n1.map trimSeg⟩ := by
  have hl : ∀ l : List Seg, List.Forall₂ Spec.TrimsSeg l (l.map trimSeg) := by
    intro l
    induction l with
    | nil => exact .nil
    | cons s l ih => exact .cons (trimsSeg_map s) ih
  have ho : ∀ o : Option Seg, Option.Rel Spec.TrimsSeg o (o.map trimSeg) := by
    intro o
    cases o with
    | none => exact .none
    | some s => exact .some (trimsSeg_map s)
  exact ⟨hl _, hl _, ho _, ho _, ho _, ho _, ho _, ho _⟩

/-- A K1 segment whose name ends in a blank. -/
def Samples.k1Blank : Seg := ⟨.k1, k1.fields.set .OriginalCreditorName (.str (b! "CREDITOR "))⟩

/-- A data record whose account number ends in blanks. -/
def Samples.blankEnd : Fields := base 1200 1196 [(.ConsumerAccountNumber, .str (b! "12345  "))]

/-- Case of `C29_iff`. It is valid, and without the blanks it is a good record. -/
example : Spec.TrimsAll blankEnd (blankEnd.map fun p => (p.1, trimVal p.2)) ∧
    blankEnd ≠ blankEnd.map (fun p => (p.1, trimVal p.2)) ∧
    Spec.TrimsSegs { k1 := some k1Blank } { k1 := some (trimSeg k1Blank) } ∧
    (Record.base .character blankEnd { k1 := some k1Blank }).validate = none ∧
    Spec.GoodBase .character true (blankEnd.map fun p => (p.1, trimVal p.2)) { k1 := some (trimSeg k1Blank) } ∧
    blankEnd.Typed baseSegmentStruct ∧
    Spec.NextOk .character (blankEnd.map fun p => (p.1, trimVal p.2)) { k1 := some (trimSeg k1Blank) } [] :=
  ⟨trimsAll_map _, by decide +kernel, trimsSegs_map { k1 := some k1Blank }, by decide +kernel,
    goodBase_of_B (by decide +kernel) (by decide +kernel) (by decide +kernel) (by decide) (by decide +kernel) (by decide +kernel),
    typed_of_typedB (by decide +kernel), nextOk_of_B (by decide +kernel)⟩

/-- C29, exactly: of a valid record, the one without the blanks is valid if and only if no required text is blank, the payment
history profile does not end in a blank, and the identification number is not a row of zeros or nines followed by blanks. -/
theorem C29_iff (enc : Enc) (fs ft : Fields) (g h : Segs) (ht : fs.Typed baseSegmentStruct) (hf : Spec.TrimsAll fs ft)
    (hv : (Record.base enc fs g).validate = none) :
    (Record.base enc ft h).validate = none ↔ Spec.TextsPresent enc.baseFormat fs ∧
      (∀ s, (.PaymentHistoryProfile, .str s) ∈ fs → s.getLast? ≠ some ' '.toNat.toUInt8) ∧
      ∀ s, (.IdentificationNumber, .str s) ∈ fs → ¬ Spec.FilledThenBlank s := by
  have hn : (fs.map (·.1)).Nodup := by rw [ht.names]; exact (layout_base enc).structNames
  have hmem : ∀ f d, (f, d) ∈ baseSegmentStruct → d.kind = .str → (f, .str (fs.str f)) ∈ fs := by
    intro f d hd hk
    obtain ⟨v, hg, hv⟩ := ht.get (layout_base enc).structNames hd
    rw [hk] at hv
    cases v with
    | str s => rw [Fields.str, hg]; exact Fields.mem_of_get hg
    | int => cases hv
    | time => cases hv
  have hhist := hmem .PaymentHistoryProfile ⟨.str, b! "paymentHistoryProfile", false⟩ (by decide +kernel) rfl
  have hid := hmem .IdentificationNumber ⟨.str, b! "identificationNumber", false⟩ (by decide +kernel) rfl
  obtain ⟨i, hst⟩ : ∃ v, (.AccountStatus, v) ∈ fs := ⟨_, hmem .AccountStatus ⟨.str, b! "accountStatus", false⟩ (by decide +kernel) rfl⟩
  have hstr : ∀ f s, (f, .str s) ∈ fs → s = fs.str f := by
    intro f s hs
    rw [Fields.str, Fields.get_of_mem hn hs]
  have hreq : ∃ e, (.IdentificationNumber, e) ∈ enc.baseFormat ∧ e.req = .required := by
    cases enc
    · exact ⟨⟨20, 20, .alphanumeric, false, false, .required⟩, by decide +kernel, rfl⟩
    · exact ⟨⟨14, 20, .alphanumeric, false, false, .required⟩, by decide +kernel, rfl⟩
  unfold Record.validate at hv ⊢
  simp only at hv ⊢
  have hall := (validateLoop_none _ _ _).1 hv
  have hcustom := fun f => baseCustom_trims (enc := enc) hf (hall _ hst).2 f
  rw [validateLoop_trims (layout_base enc).names hf hv]
  refine and_congr_right fun hp => ?_
  constructor
  · intro h
    refine ⟨?_, ?_⟩
    · intro s hs
      rw [hstr _ _ hs]
      have hc := (hall _ hhist).2
      exact ((hcustom _ hc).1 (h _ hhist hc)).1 rfl
    · intro s hs hfill
      rw [hstr _ _ hs] at hfill
      have hc := (hall _ hid).2
      have := ((hcustom _ hc).1 (h _ hid hc)).2 rfl
      rw [(filled_trims (TrimsAll.str hf _)).2 (.inr hfill)] at this
      cases this
  · rintro ⟨h1, h2⟩ p hp' hc
    refine (hcustom _ hc).2 ⟨fun _ => h1 _ hhist, fun _ => ?_⟩
    rw [Bool.eq_false_iff]
    intro hfill
    rcases (filled_trims (TrimsAll.str hf _)).1 hfill with hb | hb
    · obtain ⟨e, he1, he2⟩ := hreq
      exact hp _ _ e hid he1 he2 hb
    · exact h2 _ hid hb

/-- C29 is violated by a required text of blanks and by an identification number of zeros followed by a blank, too. -/
theorem C29_violated_texts : ∀ p ∈ [(F.ConsumerAccountNumber, b! " "), (.IdentificationNumber, b! "00000 ")],
    (Record.base .character (base 1200 1196 [(p.1, .str p.2)]) segs).validate = none ∧
    ∃ r n, (newBase .character).parse (Record.base .character (base 1200 1196 [(p.1, .str p.2)]) segs).string true = (r, .ok n) ∧
      r.validate ≠ none := by
  intro p hp
  refine ⟨by revert p; decide +kernel, .base .character (base 1200 1196 [(p.1, .str (trimRight p.2))]) segs, 1200, ?_, ?_⟩
  · revert p; decide +kernel
  · revert p; decide +kernel

/-- The same for segments: only the required texts matter. -/
theorem C29_segment_iff (s t : Seg) (h : Spec.TrimsSeg s t) (hv : s.validate = none) :
    t.validate = none ↔ Spec.TextsPresent s.kind.format s.fields := by
  unfold Seg.validate at hv ⊢
  rw [← h.1, validateLoop_trims (layout_segment s.kind).names h.2 hv]
  exact ⟨fun h => h.1, fun hp => ⟨hp, fun p _ hc => segCustom_trims h.2 p.1 hc⟩⟩

example : Spec.TrimsSeg k1Blank (trimSeg k1Blank) ∧ k1Blank ≠ trimSeg k1Blank ∧ k1Blank.validate = none :=
  ⟨trimsSeg_map _, by decide +kernel, by decide +kernel⟩

end Metro2
