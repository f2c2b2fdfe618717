import Verif.Lemmas.PlainText
import Verif.Props.Parse

/-! `File.Parse` on the text of a well-formed file. -/

namespace Metro2

theorem header_reread {enc : Enc} {isVar : Bool} {fs : Fields} (h : Spec.GoodHeader enc isVar fs) (rest : Bytes) :
    (newHeader enc).parse ((Record.header enc fs).string ++ rest) isVar =
      (.header enc fs, .ok (Spec.sizeWord isVar fs)) := by
  have hb := h.bdw
  have hp := h.packed
  cases isVar with
  | true =>
    simp only [if_true] at hb
    exact C15_header_variable enc fs h.typed h.fits hb.1 hb.2 h.ident rest
  | false =>
    simp only [Bool.false_eq_true, if_false] at hb
    cases enc with
    | character => exact C15_header_fixed fs h.typed h.fits hb rest
    | packed => exact absurd (hp rfl) (by simp)

/-- What follows the data records begins like a record and not like a segment. -/
theorem noSegment_tail {enc : Enc} {isVar : Bool} {tfs : Fields} (htr : Spec.GoodTrailer enc tfs) (extra : Bytes)
    (hti : enc = .packed → ∀ k, Spec.rdw tfs ≠ Spec.identNumber k) (bs : List Record)
    (hbs : ∀ r ∈ bs, ∃ fs g, r = .base enc fs g ∧ Spec.GoodData enc isVar fs g)
    (hbi : enc = .packed → ∀ r ∈ bs, ∀ k, Spec.bdw r.fields ≠ Spec.identNumber k) :
    Spec.NoSegment ((bs.map Record.string).flatten ++ ((Record.trailer enc tfs).string ++ extra)) := by
  cases bs with
  | nil =>
    have hb := rdw_bounds htr.fits (trailer_rdw_mem htr.typed) (trailer_rows enc).1
    exact noSegment_of_first (trailer_first htr extra) (by have := htr.size; omega) hb hti
  | cons b bs =>
    obtain ⟨fs, g, rfl, hg⟩ := hbs b List.mem_cons_self
    simp only [List.map_cons, List.flatten_cons, List.append_assoc]
    have h1 := sizeWord_le (blocked_base enc) hg.base.typed hg.base.fits hg.base.bdw
    have h2 := hg.base.size
    refine noSegment_of_first (base_first hg.base _) (by omega) h1 ?_
    intro he k
    have hv := hg.base.packed he
    subst hv
    exact hbi he _ List.mem_cons_self k

theorem parseBases_text {enc : Enc} {isVar : Bool} {tfs : Fields} (htr : Spec.GoodTrailer enc tfs) (extra : Bytes)
    (hti : enc = .packed → ∀ k, Spec.rdw tfs ≠ Spec.identNumber k) :
    ∀ (bs : List Record) (pre : Bytes) (acc : List Record) (fuel : Nat), pre ≠ [] → bs.length < fuel →
    (∀ r ∈ bs, ∃ fs g, r = .base enc fs g ∧ Spec.GoodData enc isVar fs g) →
    (enc = .packed → ∀ r ∈ bs, ∀ k, Spec.bdw r.fields ≠ Spec.identNumber k) →
    parseBases enc isVar (pre ++ ((bs.map Record.string).flatten ++ ((Record.trailer enc tfs).string ++ extra)))
      fuel ((pre.length : Nat) : Int) acc =
      some (acc ++ bs, (((pre ++ (bs.map Record.string).flatten).length : Nat) : Int), none) := by
  have htl : 0 < (Record.trailer enc tfs).string.length := by
    have h1 := trailer_text_length htr
    have h2 := htr.size
    have h3 := recordLength_pos enc
    omega
  intro bs
  induction bs with
  | nil =>
    intro pre acc fuel hpre hfuel _ _
    obtain ⟨n, rfl⟩ : ∃ n, fuel = n + 1 := ⟨fuel - 1, by simp at hfuel; omega⟩
    have hp : 0 < pre.length := List.length_pos_iff.2 hpre
    simp only [List.map_nil, List.flatten_nil, List.nil_append, List.append_nil]
    rw [parseBases_succ, if_neg (by rw [List.length_append, List.length_append]; omega)]
    rw [show ((pre.length : Nat) : Int).toNat = pre.length from by omega, List.drop_left]
    obtain ⟨b, err, he, hne⟩ := base_of_trailer htr isVar extra
    rw [he]
    cases err <;> first | rfl | exact absurd rfl hne
  | cons b bs ih =>
    intro pre acc fuel hpre hfuel hbs hbi
    obtain ⟨n, rfl⟩ : ∃ n, fuel = n + 1 := ⟨fuel - 1, by simp at hfuel; omega⟩
    have hp : 0 < pre.length := List.length_pos_iff.2 hpre
    obtain ⟨fs, g, rfl, hg⟩ := hbs b List.mem_cons_self
    have hbs' := fun r hr => hbs r (List.mem_cons_of_mem _ hr)
    have hbi' := fun he r hr => hbi he r (List.mem_cons_of_mem _ hr)
    have hns := noSegment_tail (isVar := isVar) htr extra hti bs hbs' hbi'
    have hread := base_reread hg.base (rest := (bs.map Record.string).flatten ++
      ((Record.trailer enc tfs).string ++ extra)) (fun _ => hns)
    have hlen := base_text_length hg
    simp only [List.map_cons, List.flatten_cons, List.append_assoc]
    rw [parseBases_succ, if_neg (by simp only [List.length_append]; omega)]
    rw [show ((pre.length : Nat) : Int).toNat = pre.length from by omega, List.drop_left, hread]
    simp only
    have := ih (pre ++ (Record.base enc fs g).string) (acc ++ [.base enc fs g]) n (by simp [hpre])
      (by simp at hfuel; omega) hbs' hbi'
    rw [← hlen, ← Int.natCast_add, ← List.length_append]
    rw [← List.append_assoc pre]
    rw [this]
    simp only [List.append_assoc, List.singleton_append]

/-- `File.Parse` on the text of a well-formed file and further data, without line breaks. -/
theorem parse_text {enc : Enc} {isVar : Bool} {f : File} (h : Spec.GoodFile enc isVar f)
    (hi : enc = .packed → Spec.NoIdentSizes f) (extra buf : Bytes) (hbuf : stripNewlines buf = f.string false ++ extra)
    (fuel : Nat) (hfuel : f.bases.length < fuel) :
    (newFile enc).parse fuel buf isVar = some (f, if extra = [] then none else some .failedParsing) := by
  obtain ⟨format, header, bases, trailer⟩ := f
  obtain ⟨h0, ⟨hfs, h1, hh⟩, hbs, ⟨tfs, h2, htr⟩⟩ := h
  simp only at h0 h1 h2 hbs hfuel
  subst h0 h1 h2
  have htext : stripNewlines buf = (Record.header format hfs).string ++ ((bases.map Record.string).flatten ++
      ((Record.trailer format tfs).string ++ extra)) := by
    rw [hbuf]
    simp only [File.string, newLine, Bool.false_eq_true, if_false, List.append_nil, List.append_assoc]
  have hhl := header_text_length hh
  have hhs := hh.size
  have hrl := recordLength_pos format
  have hfl : Spec.recordLength format ≤ Spec.fixedLength format hfs := Nat.le_add_right _ _
  have htl := trailer_text_length htr
  have hts := htr.size
  unfold File.parse
  rw [deleteFunc_newline, htext]
  simp only [newFile]
  rw [header_reread hh]
  simp only
  have hpb := parseBases_text (isVar := isVar) htr extra (fun he => (hi he).2) bases (Record.header format hfs).string
    [] fuel (by intro h0; rw [h0] at hhl; simp at hhl; omega) hfuel hbs (fun he => (hi he).1)
  rw [← hhl, hpb]
  simp only [List.nil_append]
  rw [if_neg (by simp only [List.length_append]; omega),
    sliceFrom_of_le (by omega) (by simp only [List.length_append]; omega)]
  simp only
  have hd : (((Record.header format hfs).string ++ (bases.map Record.string).flatten).length : Int).toNat =
      ((Record.header format hfs).string ++ (bases.map Record.string).flatten).length := by omega
  rw [hd, ← List.append_assoc (Record.header format hfs).string, List.drop_left,
    C18_trailer format tfs htr.typed htr.fits]
  simp only
  by_cases he : extra = []
  · rw [if_pos he, if_neg]
    rw [he]
    simp only [List.length_append, List.length_nil]
    omega
  · rw [if_neg he, if_pos]
    have := List.length_pos_iff.2 he
    simp only [List.length_append]
    omega

end Metro2
