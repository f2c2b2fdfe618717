import Verif.Model.FileMessages
import Verif.Spec.FileMessages
import Verif.Lemmas.Messages
import Verif.Lemmas.Damage
import Verif.Props.Messages

/-! Error texts of files and readers. -/

namespace Metro2

open Spec (Pieces recordsOf)

/-- The texts that `Parse` of headers and trailers can give. -/
theorem parseText_about {n : Sort14} {err : Err} {m : Bytes} (h : n.parseText err = some m) : Spec.About m n ∨ Spec.Nameless m := by
  have go : ∀ {f x}, Spec.faultOf err = some (f, x) →
      (err = .required f ∨ err = .numeric f ∨ err = .nonAlphanumeric f ∨ err = .upperAlpha f ∨ err = .invalidValue f) →
      Spec.About m n ∨ Spec.Nameless m := by
    intro f x hf hd
    obtain ⟨a, ha, ha'⟩ := parseText_says (n := n) hf hd
    rw [h] at ha
    exact .inl (.inr ⟨f, x, Option.some.inj ha ▸ ha'⟩)
  cases err with
  | required f => exact go rfl (by simp)
  | numeric f => exact go rfl (by simp)
  | nonAlphanumeric f => exact go rfl (by simp)
  | upperAlpha f => exact go rfl (by simp)
  | invalidValue f => exact go rfl (by simp)
  | segmentLength =>
    obtain rfl := Option.some.inj h
    exact .inl (.inl (by rw [errSegmentLength, text_eq]))
  | blockDescriptorWord =>
    obtain rfl := Option.some.inj h
    exact .inr (by decide +kernel)
  | failedParsing =>
    obtain rfl := Option.some.inj h
    exact .inr (by decide +kernel)
  | _ => cases h

theorem record_parseText_about {r : Record} (hr : ∀ enc fs g, r ≠ .base enc fs g) {rec : Bytes} {isVar : Bool} {m : Bytes}
    (h : r.parseText rec isVar = some m) : Spec.About m r.sort ∨ Spec.Nameless m := by
  unfold Record.parseText at h
  split at h
  · cases h
  · cases r with
    | base enc fs g => exact absurd rfl (hr enc fs g)
    | header enc fs => exact parseText_about h
    | trailer enc fs => exact parseText_about h

/-- No text about a field is a text that names no record, or one about a missing part. -/
theorem not_accuses {m : Bytes} (h : Spec.Nameless m ∨ Spec.Missing m) (f : F) (n : Sort14) (x : Spec.Fault) : ¬ Spec.Accuses m f n x := by
  rintro ⟨w, e, -⟩
  have hs : ending n x <:+ m := ⟨w, by rw [e]; simp [ending]⟩
  have hp : (n, x) ∈ endings := by
    simp only [endings, List.mem_flatMap, List.mem_map]
    exact ⟨n, mem_allSorts n, x, mem_allFaults x, rfl⟩
  have key : endings.all (fun p => [b! "the file isn't metro file", b! "should be block descriptor word", b! "is failed parsing raw data",
      b! "base record has an invalid length", b! "has an invalid segment (header)", b! "has an invalid segment (trailer)"].all fun m =>
        !(ending p.1 p.2).isSuffixOf m) = true := by decide +kernel
  have hm : m ∈ [b! "the file isn't metro file", b! "should be block descriptor word", b! "is failed parsing raw data",
      b! "base record has an invalid length", b! "has an invalid segment (header)", b! "has an invalid segment (trailer)"] := by
    rcases h with h | h
    · exact List.mem_append_left [b! "has an invalid segment (header)", b! "has an invalid segment (trailer)"] h
    · exact List.mem_append_right [b! "the file isn't metro file", b! "should be block descriptor word", b! "is failed parsing raw data",
        b! "base record has an invalid length"] h
  have := List.all_eq_true.1 (List.all_eq_true.1 key _ hp) _ hm
  simp only [Bool.not_eq_true'] at this
  rw [List.isSuffixOf_iff_suffix.2 hs] at this
  cases this

/-- A text about a length is not about a field. -/
theorem length_not_accuses (k : Sort14) (f : F) (n : Sort14) (x : Spec.Fault) :
    ¬ Spec.Accuses (Spec.ownName k ++ b! " has an invalid length") f n x := by
  rintro ⟨w, e, -⟩
  have hs : x.words <:+ Spec.ownName k ++ b! " has an invalid length" := ⟨w ++ b! " in " ++ Spec.ownName n, by rw [e]⟩
  have key : allFaults.all (fun x => allSorts.all fun k => !x.words.isSuffixOf (Spec.ownName k ++ b! " has an invalid length")) = true := by
    decide +kernel
  have := List.all_eq_true.1 (List.all_eq_true.1 key _ (mem_allFaults x)) _ (mem_allSorts k)
  simp only [Bool.not_eq_true'] at this
  rw [List.isSuffixOf_iff_suffix.2 hs] at this
  cases this

/-- The name of a type can be read off a text about its length. -/
theorem length_names {k n : Sort14} (h : Spec.ownName k ++ b! " has an invalid length" = Spec.ownName n ++ b! " has an invalid length") : k = n := by
  have h1 : Spec.ownName k = Spec.ownName n := List.append_cancel_right h
  have key : allSorts.all (fun k => allSorts.all fun n => k = n || !decide (Spec.ownName k = Spec.ownName n)) = true := by decide +kernel
  have := List.all_eq_true.1 (List.all_eq_true.1 key _ (mem_allSorts k)) _ (mem_allSorts n)
  simp only [Bool.or_eq_true, decide_eq_true_eq, Bool.not_eq_true', decide_eq_false_iff_not] at this
  rcases this with h2 | h2
  · exact h2
  · exact absurd h1 h2

/-- A text is about at most one type. -/
theorem about_unique {m : Bytes} {n k : Sort14} (h1 : Spec.About m n) (h2 : Spec.About m k) : n = k := by
  rcases h1 with rfl | ⟨f, x, h1⟩
  · rcases h2 with h2 | ⟨f, x, h2⟩
    · exact length_names h2
    · exact absurd h2 (length_not_accuses _ _ _ _)
  · rcases h2 with rfl | ⟨g, y, h2⟩
    · exact absurd h1 (length_not_accuses _ _ _ _)
    · exact (says_unique h1 h2).2.1

theorem nameless_not_about {m : Bytes} (h : Spec.Nameless m ∨ Spec.Missing m) (n : Sort14) : ¬ Spec.About m n := by
  rintro (rfl | ⟨f, x, h1⟩)
  · have key : allSorts.all (fun k => !decide (Spec.Nameless (Spec.ownName k ++ b! " has an invalid length") ∨
        Spec.Missing (Spec.ownName k ++ b! " has an invalid length"))) = true := by decide +kernel
    have := List.all_eq_true.1 key _ (mem_allSorts n)
    simp only [Bool.not_eq_true', decide_eq_false_iff_not] at this
    exact this h
  · exact not_accuses h _ _ _ h1

/-! ### The reader as a function of the records -/

/-- The text of the error of `Read` on a list of lines. -/
def readLinesText : List Bytes → Option Bytes
  | [] => some (errInvalidSegment (b! "header"))
  | line :: ls =>
    match readHeader (newFile .character) line with
    | .error _ => readHeaderText (newFile .character) line
    | .ok (f, isVar) =>
      match lineBases f.format isVar ls [] with
      | .error _ => none
      | .ok (_, some line) => f.trailer.parseText line isVar
      | .ok (_, none) => some (errInvalidSegment (b! "trailer"))

theorem readFileText_lines {p : Plan} (hp : p.Progress) {raw : Bytes} {ps : List Bytes} (h : Pieces raw ps) :
    readFileText p raw = readLinesText (recordsOf ps) := by
  have hok := newScanner_ok raw
  have hin := newScanner_input raw
  have stuck : Stuck raw → readFileText p raw = some (errInvalidSegment (b! "header")) := by
    intro hn
    obtain ⟨t, ht, -, -⟩ := Scanner.scan_none hp hok (hin.symm ▸ hn)
    unfold readFileText
    simp only
    rw [ht]
  cases h with
  | nil hno => exact stuck (stuck_of_nil hno)
  | @cons a b ps ha hb =>
    rw [recordsOf_cons]
    by_cases hl : a.length ≤ maxTokenSize
    · rw [if_pos hl]
      obtain ⟨t, ht, h1, h2⟩ := Scanner.scan_some hp hok hin ha hl
      unfold readFileText readLinesText
      simp only
      rw [ht]
      simp only
      generalize readHeader (newFile .character) (Spec.withoutBreaks a) = q
      cases q with
      | error e => rfl
      | ok q =>
        obtain ⟨f, isVar⟩ := q
        have := readBases_lines hp (enc := f.format) (isVar := isVar) hb t [] h1 h2
        simp only
        generalize lineBases f.format isVar (recordsOf ps) [] = r at this
        cases r with
        | error e => rw [this]
        | ok r =>
          obtain ⟨bs, line⟩ := r
          cases line with
          | some line =>
            obtain ⟨t, ht⟩ := this
            rw [ht]
          | none =>
            obtain ⟨t, u, ht, hu⟩ := this
            rw [ht]
            simp only
            rw [hu]
    · rw [if_neg hl]
      exact stuck (stuck_of_long ha (by omega))

theorem readFileText_joined {p : Plan} (hp : p.Progress) (nl : Bool) (t : Bytes) (ts : List Bytes) (hts : ∀ u ∈ t :: ts, RecordText u) :
    readFileText p (Spec.joinRecords nl (t :: ts)) = readLinesText (t :: ts) := by
  obtain ⟨ps, h1, h2⟩ := pieces_join nl t ts hts pieces_nil
  rw [List.append_nil] at h1
  rw [readFileText_lines hp h1, h2]
  simp [recordsOf]

end Metro2
