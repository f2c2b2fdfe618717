import Verif.Lemmas.Places
import Verif.Lemmas.Own
import Verif.Props.Chain
import Verif.Props.Rules
import Verif.Spec.Damage

/-! Reading files with a damaged record. -/

namespace Metro2

open Spec (Pieces recordsOf)

theorem pieces_nil : Pieces [] [] := .nil fun a b hab hp => by
  have : a = [] := (List.append_eq_nil_iff.1 hab.symm).1
  subst this
  have := hp.1
  simp [Spec.withoutBreaks] at this

/-- The reader on records one after the other. -/
theorem readFile_joined {p : Plan} (hp : p.Progress) (nl : Bool) (t : Bytes) (ts : List Bytes) (hts : ∀ u ∈ t :: ts, RecordText u) :
    readFile p (Spec.joinRecords nl (t :: ts)) = readLines (t :: ts) := by
  obtain ⟨ps, h1, h2⟩ := pieces_join nl t ts hts pieces_nil
  rw [List.append_nil] at h1
  rw [readFile_lines hp h1, h2]
  simp [recordsOf]

theorem Spec.Damaged.recordText {s t : Bytes} (h : Spec.Damaged s t) (hs : RecordText s) : RecordText t :=
  ⟨h.noBreaks, h.length ▸ hs.four, by rw [h.start, h.length]; exact hs.announces⟩

theorem lineBases_good {enc : Enc} {isVar : Bool} (more : List Bytes) :
    ∀ (bs acc : List Record), (∀ r ∈ bs, ∃ fs g, r = .base enc fs g ∧ Spec.GoodData enc isVar fs g) →
    lineBases enc isVar (bs.map Record.string ++ more) acc = lineBases enc isVar more (acc ++ bs) := by
  intro bs
  induction bs with
  | nil => intro acc _; simp
  | cons b bs ih =>
    intro acc hbs
    obtain ⟨fs, g, rfl, hg⟩ := hbs b List.mem_cons_self
    have hread := base_reread hg.base (rest := []) (fun _ => by
      intro k hk
      have := hk.length_le
      revert this
      cases k <;> decide +kernel)
    rw [List.append_nil] at hread
    simp only [List.map_cons, List.cons_append, lineBases]
    rw [hread]
    simp only
    rw [ih _ fun r hr => hbs r (List.mem_cons_of_mem _ hr)]
    simp

theorem lineBases_fail {enc : Enc} {isVar : Bool} {t : Bytes} (h : ¬ Spec.ReadsAsData enc isVar t) (more : List Bytes) (acc : List Record) :
    lineBases enc isVar (t :: more) acc = .ok (acc, some t) := by
  have hnp := (C13_record (newBase enc) (by cases enc <;> exact zeroFields_typed _) t isVar).1
  rw [lineBases]
  generalize hq : (newBase enc).parse t isVar = q at hnp
  obtain ⟨b, x⟩ := q
  cases x with
  | ok n => exact absurd ⟨b, n, hq⟩ h
  | error err => cases err <;> first | rfl | exact absurd rfl hnp

theorem telltale_not_trailer {enc : Enc} {isVar : Bool} {t : Bytes} (h : Spec.Telltale enc isVar t) : ¬ Spec.ReadsAsTrailer enc isVar t := by
  rintro ⟨r, n, hr⟩
  have hty : ((zeroFields trailerRecordStruct).set .RecordIdentifier (.str (b! "TRAILER"))).Typed trailerRecordStruct := by
    exact typed_of_typedB (by decide +kernel)
  rw [newTrailer, Record.parse] at hr
  generalize hq : parseTrailer enc ((zeroFields trailerRecordStruct).set .RecordIdentifier (.str (b! "TRAILER"))) t isVar = q at hr
  obtain ⟨fs', x⟩ := q
  simp only [Prod.mk.injEq] at hr
  obtain ⟨-, rfl⟩ := hr
  obtain ⟨hty', hs⟩ := trailer_slots hty hq
  have hmem : ∀ f, f ∈ trailerRecordStruct.map Prod.fst → ∃ v, (f, v) ∈ noBdw fs' := by
    intro f hm
    have hf : f ≠ .BlockDescriptorWord := by
      rintro rfl
      revert hm
      decide +kernel
    rw [← hty'.names] at hm
    obtain ⟨⟨f', v⟩, hm', rfl⟩ := List.mem_map.1 hm
    exact ⟨v, List.mem_filter.2 ⟨hm', by simpa using hf⟩⟩
  -- a byte inside a row belongs to the bytes of the row
  have hin : ∀ (a l i : Nat) (c : UInt8), t[i]? = some c → a ≤ i → i < a + l → c ∈ (t.drop a).take l := by
    intro a l i c hc h1 h2
    refine List.mem_iff_getElem?.2 ⟨i - a, ?_⟩
    rw [List.getElem?_take, if_pos (by omega), List.getElem?_drop, show a + (i - a) = i by omega]
    exact hc
  have num : ∀ (f : F) (a : Nat) (i : Nat) (c : UInt8), f ∈ trailerRecordStruct.map Prod.fst →
      Enc.character.trailerFormat.lookup f = some ⟨a, 9, .numeric, false, false, .nullable⟩ → enc = .character →
      t[i]? = some c → a ≤ i → i < a + 9 → c.toNat ≤ 57 := by
    rintro f a i c hm hl rfl hc h1 h2
    obtain ⟨v, m⟩ := hmem f hm
    obtain ⟨-, e, l, -, p1, p2⟩ := hs _ m
    simp only at l p1 p2
    rw [hl] at l
    cases l
    simp only [Nat.add_zero] at p1 p2
    obtain ⟨i', -, hd, -⟩ := (C09_numeric_accepted_iff _ f _ v rfl).1 ⟨p1, p2⟩
    have hc' := hin a 9 i c hc h1 h2
    obtain ⟨ds, n', -, hds, hd⟩ := hd
    rcases hd with ⟨e, -⟩ | ⟨e, -⟩ | ⟨e, -⟩ <;> rw [e] at hc'
    · exact (hds.1 c hc').2
    · rcases List.mem_cons.1 hc' with rfl | hc'
      · decide
      · exact (hds.1 c hc').2
    · rcases List.mem_cons.1 hc' with rfl | hc'
      · decide
      · exact (hds.1 c hc').2
  cases enc with
  | character =>
    obtain ⟨c, hc, h1, -⟩ := h
    have h1 : 65 ≤ c.toNat := h1
    cases isVar with
    | false =>
      have := num .TotalStatusCodeDA 65 72 c (by decide +kernel) (by decide +kernel) rfl hc (by decide) (by decide)
      omega
    | true =>
      have := num .TotalStatusCode05 74 76 c (by decide +kernel) (by decide +kernel) rfl hc (by decide) (by decide)
      omega
  | packed =>
    have h : t[6]? = some 0 := h
    obtain ⟨v, m⟩ := hmem .RecordIdentifier (by decide +kernel)
    obtain ⟨-, e, l, -, p1, p2⟩ := hs _ m
    simp only at l p1 p2
    rw [show Enc.packed.trailerFormat.lookup .RecordIdentifier = some ⟨4, 7, .alphanumeric, false, false, .required⟩ by decide +kernel] at l
    cases l
    simp only [Nat.add_zero] at p1 p2
    have hc' := hin 4 7 6 0 h (by decide) (by decide)
    have := ((C09_alphanumeric_accepted_iff _ _ _ v rfl (List.ne_nil_of_mem hc')).1 ⟨p1, p2⟩).1 0 hc'
    exact absurd this.1 (by decide)

/-- A valid data record has what no trailer has. -/
theorem telltale_of_good {enc : Enc} {isVar : Bool} {fs : Fields} {g : Segs} (h : Spec.GoodData enc isVar fs g)
    (hv : enc = .character → (Record.base enc fs g).validate = none) : Spec.Telltale enc isVar (Record.base enc fs g).string := by
  have hg := h.base
  have hb := hg.bdw
  rw [wordMax_eq] at hb
  have hbt : toStr (bdwField enc) (some (.int (fs.int .BlockDescriptorWord))) =
      if isVar then firstWord enc (Spec.bdw fs) else [] := by
    cases isVar with
    | true => simp only [if_true] at hb ⊢; exact toStr_bdw hb.1 hb.2
    | false =>
      simp only [Bool.false_eq_true, if_false] at hb ⊢
      rw [show fs.int .BlockDescriptorWord = 0 from hb]
      exact bdwText_zero enc
  have hstr : ∃ rest, (Record.base enc fs g).string = (if isVar then firstWord enc (Spec.bdw fs) else []) ++ mainText enc.baseFormat fs ++ rest := by
    rw [Record.string, padTo, (layout_base enc).text, (blocked_base enc).bdwText hg.typed, hbt]
    exact ⟨_, by simp only [List.append_assoc]; rfl⟩
  obtain ⟨rest, hstr⟩ := hstr
  rw [hstr]
  cases enc with
  | character =>
    have hrules := (C55_character fs g hg.typed).1 (hv rfl)
    have hm : ∃ s, (F.PortfolioType, Val.str s) ∈ fs := ⟨_, (str_mem hg.typed base_names (by decide +kernel)).2 rfl⟩
    obtain ⟨s, hm⟩ := hm
    have hs := hrules.portfolio s hm
    have he : (F.PortfolioType, (⟨72, 1, .alphanumeric, false, false, .required⟩ : Field)) ∈ Enc.character.baseFormat := by decide +kernel
    have hslot := (layout_base .character).slot hg.typed hg.fits (if isVar then firstWord .character (Spec.bdw fs) else []) rest hm (by simp) he
    rw [toStr_text (hg.fits _ hm (by simp) _ he)] at hslot
    simp only at hslot
    generalize ((if isVar then firstWord .character (Spec.bdw fs) else []) ++ mainText Enc.character.baseFormat fs ++ rest) = t at hslot
    have hlen : (if isVar then firstWord .character (Spec.bdw fs) else []).length + 72 = if isVar then 76 else 72 := by
      cases isVar <;> simp [firstWord_length]
    rw [hlen] at hslot
    have hs' : ∃ c, s = [c] ∧ 65 ≤ c.toNat ∧ c.toNat ≤ 90 := by
      have hc : ∀ s ∈ Spec.portfolioCodes, s.length = 1 ∧ ∀ c ∈ s, 65 ≤ c.toNat ∧ c.toNat ≤ 90 := by decide +kernel
      obtain ⟨h1, h2⟩ := hc s hs
      obtain ⟨c, rfl⟩ := List.length_eq_one_iff.1 h1
      exact ⟨c, rfl, h2 c (by simp)⟩
    obtain ⟨c, rfl, h1, h2⟩ := hs'
    refine ⟨c, ?_, h1, h2⟩
    have := congrArg (·[0]?) hslot
    simpa [List.getElem?_take, List.getElem?_drop] using this
  | packed =>
    have hpk := hg.packed rfl
    subst hpk
    obtain ⟨b, r, fr, hfs, -, hr, -⟩ := (blocked_base .packed).shape hg.typed
    have hm : (F.RecordDescriptorWord, Val.int r) ∈ fs := by rw [hfs]; simp
    have he : (F.RecordDescriptorWord, rdwField .packed) ∈ Enc.packed.baseFormat := lookup_mem (blocked_base .packed).rdw
    have hslot := (layout_base .packed).slot hg.typed hg.fits (if true then firstWord .packed (Spec.bdw fs) else []) rest hm (by simp) he
    have h0 : 0 ≤ r := (hg.fits _ hm (by simp) _ he).1
    rw [toStr_rdw h0 (rdw_bounds hg.fits hm he)] at hslot
    obtain ⟨a, b, c, d, e1, -, e3⟩ := firstWord_cases .packed r
    rw [e1, (e3 rfl).1] at hslot
    simp only [if_true, firstWord_length, show (rdwField .packed).start = 0 from rfl, show (rdwField .packed).len = 4 from rfl] at hslot
    have := congrArg (·[2]?) hslot
    simp only [if_true]
    simpa [List.getElem?_take, List.getElem?_drop, Spec.Telltale] using this

end Metro2
