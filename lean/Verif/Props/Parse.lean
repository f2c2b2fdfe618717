import Verif.Lemmas.FileParse
import Verif.Lemmas.Check
import Verif.Props.Samples

/-! Properties C23 and C24: termination of `File.Parse` and its effect on the caller's buffer. -/

namespace Metro2

open Samples

/-- The bytes without CR and LF. -/
def Spec.withoutNewlines (s : List UInt8) : List UInt8 := s.filter fun c => decide (c ≠ 13 ∧ c ≠ 10)

theorem stripNewlines_eq (s : Bytes) : stripNewlines s = Spec.withoutNewlines s := by
  unfold stripNewlines Spec.withoutNewlines
  congr 1
  funext c
  by_cases h1 : c = 13 <;> by_cases h2 : c = 10 <;> simp [isNewline, h1, h2]

/-! ### C23 -/

/-- C23. The number of iterations allowed to the model does not matter once the loop has ended. -/
theorem C23_fuel (f : File) (n m : Nat) (buf : Bytes) (isVar : Bool) (r : File × Option Err)
    (h : f.parse n buf isVar = some r) (hm : n ≤ m) : f.parse m buf isVar = some r := by
  unfold File.parse at h ⊢
  generalize (deleteFunc isNewline buf).1 = rec at h ⊢
  simp only at h ⊢
  generalize f.header.parse rec isVar = q at h ⊢
  obtain ⟨h1, x⟩ := q
  cases x with
  | error err => exact h
  | ok v =>
    simp only at h ⊢
    generalize hb : parseBases f.format isVar rec n v [] = b at h
    cases b with
    | none => simp at h
    | some b => rw [parseBases_mono _ _ _ _ hm hb]; exact h

/-- C23, the part that holds: `File.Parse` ends for packed files, for fixed-blocked character input and for
variable-blocked character input in which no acceptable data record has a negative block descriptor; the data
record loop is entered at most len/366 + 2 times and reads at most len/366 records. Without the last
condition it may run for ever, see `C23_violated`. -/
theorem C23_terminates_partial (f : File) (buf : Bytes) (isVar : Bool)
    (hb : f.format = .character → isVar = true → ∀ tail fs g n, tail <:+ Spec.withoutNewlines buf →
      (newBase .character).parse tail true = (.base .character fs g, .ok n) → 0 ≤ Spec.bdw fs) :
    ∃ f' e, f.parse (buf.length / 366 + 2) buf isVar = some (f', e) ∧ 366 * f'.bases.length ≤ buf.length := by
  have hstrip : (deleteFunc isNewline buf).1 = Spec.withoutNewlines buf := by
    rw [deleteFunc_newline, stripNewlines_eq]
  have hlen : (Spec.withoutNewlines buf).length ≤ buf.length := List.length_filter_le _ _
  unfold File.parse
  rw [hstrip]
  generalize Spec.withoutNewlines buf = rec at *
  have hp : ∀ tail b n, tail <:+ rec → (newBase f.format).parse tail isVar = (b, .ok n) → 366 ≤ n := by
    intro tail b n ht h
    obtain ⟨fs, g, rfl⟩ := newBase_parse_base h
    apply newBase_parse_progress h
    intro he hv
    rw [he, hv] at h
    exact hb he hv tail fs g n ht h
  simp only
  generalize f.header.parse rec isVar = q
  obtain ⟨h1, x⟩ := q
  cases x with
  | error err => exact ⟨_, _, rfl, by simp⟩
  | ok v =>
    simp only
    have hd : rec.length ≤ 366 * (buf.length / 366 + 1) := by omega
    obtain ⟨⟨bs, off, e⟩, hr⟩ := parseBases_ends hp (buf.length / 366 + 1) v [] (by
      by_cases hv : v ≤ 0
      · exact .inr hv
      · left; push_cast; push_cast at hd; omega)
    rw [hr]
    have hc : 366 * bs.length ≤ buf.length := by
      have := parseBases_count hp _ _ _ _ _ _ hr
      rw [List.length_nil] at this
      omega
    cases e with
    | some err => exact ⟨_, _, rfl, hc⟩
    | none =>
      simp only
      split
      · exact ⟨_, _, rfl, hc⟩
      · rw [sliceFrom_of_le (by omega) (by omega)]
        simp only
        generalize f.trailer.parse (rec.drop off.toNat) isVar = q
        obtain ⟨t, y⟩ := q
        cases y with
        | error err => exact ⟨_, _, rfl, hc⟩
        | ok w =>
          simp only
          split <;> exact ⟨_, _, rfl, hc⟩

/-- C23: in particular it ends if the input contains no minus sign. -/
theorem C23_no_minus (f : File) (buf : Bytes) (isVar : Bool) (h : (45 : UInt8) ∉ buf) :
    ∃ f' e, f.parse (buf.length / 366 + 2) buf isVar = some (f', e) ∧ 366 * f'.bases.length ≤ buf.length := by
  apply C23_terminates_partial
  intro _ _ tail fs g n ht hp
  obtain ⟨ds, m, -, -, h3⟩ := newBase_parse_bdw hp
  rcases h3 with ⟨-, h3⟩ | ⟨-, h3⟩ | ⟨h4, -⟩
  · rw [Spec.bdw, h3]; omega
  · rw [Spec.bdw, h3]; omega
  · exfalso
    apply h
    have h5 : (45 : UInt8) ∈ tail.take 4 := by rw [h4]; exact List.mem_cons_self
    exact (List.mem_filter.1 (ht.subset (List.mem_of_mem_take h5))).1

/-- Case of `C23_terminates_partial`. Non-vacuity: a complete variable-blocked file without minus sign. -/
example : (45 : UInt8) ∉ (File.string ⟨.character, .header .character (header 430 426),
    [.base .character (base 530 526) { j1 := [j1] }], .trailer .character (trailer 426)⟩ true) := by decide +kernel

/-- Input on which `File.Parse` does not end: a header with block descriptor 930; a data record with block
descriptor 500, from 430 to 930; a data record with block descriptor -1 and record descriptor -500. -/
def endless : Bytes :=
  fieldsString headerRecordCharacterFormat (header 930 926) ++
    (padTo 500 (fieldsString baseSegmentCharacterFormat (base 500 496)) ++
      (b! "-001-500" ++ (fieldsString baseSegmentCharacterFormat (base 430 426)).drop 8))

theorem endless_header : (newHeader .character).parse endless true =
    (.header .character (header 930 926), .ok 930) := by decide +kernel

theorem endless_a : (newBase .character).parse (endless.drop 430) true =
    (.base .character (base 500 496) {}, .ok 500) := by decide +kernel

theorem endless_b : (newBase .character).parse (endless.drop 930) true =
    (.base .character (base (-1) (-500)) {}, .ok (-500)) := by decide +kernel

theorem endless_length : endless.length = 1360 := by decide +kernel

/-- C23 is violated: there is an input of 1360 bytes on which `File.Parse` has not ended after any number of
iterations. -/
theorem C23_violated : ∃ buf, ∀ fuel, (newFile .character).parse fuel buf true = none := by
  refine ⟨endless, fun fuel => ?_⟩
  have hs : (deleteFunc isNewline endless).1 = endless := by decide +kernel
  have key : ∀ n acc, parseBases .character true endless n 930 acc = none ∧
      parseBases .character true endless n 430 acc = none := by
    intro n
    induction n with
    | zero => intro acc; exact ⟨rfl, rfl⟩
    | succ n ih =>
      intro acc
      rw [parseBases_succ, parseBases_succ, endless_length, if_neg (by decide), if_neg (by decide),
        show (930 : Int).toNat = 930 from rfl, show (430 : Int).toNat = 430 from rfl, endless_a, endless_b]
      exact ⟨(ih _).2, (ih _).1⟩
  unfold File.parse
  rw [hs, show (newFile .character).header = newHeader .character from rfl,
    show (newFile .character).format = .character from rfl]
  simp only [endless_header, (key fuel []).1]

/-! ### C24 -/

/-- C24, the part that holds: the caller's buffer is unchanged if and only if it has no CR or LF. -/
theorem C24_buffer_partial (buf : Bytes) :
    (deleteFunc isNewline buf).2 = buf ↔ ∀ c ∈ buf, c ≠ 13 ∧ c ≠ 10 := by
  rw [deleteFunc_eq]
  simp only
  rw [show buf.filter (fun c => !isNewline c) = Spec.withoutNewlines buf from stripNewlines_eq buf]
  constructor
  · intro h c hc
    rw [← h, List.mem_append] at hc
    rcases hc with hc | hc
    · have := (List.mem_filter.1 hc).2; simpa using this
    · have := (List.mem_replicate.1 hc).2; subst this; decide
  · intro h
    have : Spec.withoutNewlines buf = buf := List.filter_eq_self.2 fun c hc => by simpa using h c hc
    rw [this]; simp

/-- C24. What is parsed, and what is left in the caller's buffer. -/
theorem C24_contents (buf : Bytes) : (deleteFunc isNewline buf).1 = Spec.withoutNewlines buf ∧
    ∃ n, (deleteFunc isNewline buf).2 = Spec.withoutNewlines buf ++ List.replicate n 0 ∧
      (Spec.withoutNewlines buf).length + n = buf.length := by
  rw [deleteFunc_eq]
  simp only
  rw [show buf.filter (fun c => !isNewline c) = Spec.withoutNewlines buf from stripNewlines_eq buf]
  have : (Spec.withoutNewlines buf).length ≤ buf.length := List.length_filter_le _ _
  exact ⟨rfl, _, rfl, by omega⟩

/-- C24 is violated by any line break. -/
theorem C24_violated : ∃ buf, (deleteFunc isNewline buf).2 ≠ buf ∧ (deleteFunc isNewline buf).2 = b! "ABC\u0000" :=
  ⟨b! "A\nBC", by decide +kernel, by decide +kernel⟩

/-- Case of `C23_fuel`: a text that is refused at once. -/
example : (newFile .character).parse 1 (b! "0426") false = (newFile .character).parse 9 (b! "0426") false := by decide +kernel

/-- Cases of `C24_buffer_partial` and `C24_contents`. -/
example : deleteFunc isNewline (b! "a\r\nb\n") = (b! "ab", b! "ab" ++ [0, 0, 0]) ∧ deleteFunc isNewline (b! "ab") = (b! "ab", b! "ab") := by
  decide +kernel

end Metro2
