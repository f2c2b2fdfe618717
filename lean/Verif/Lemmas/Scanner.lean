import Verif.Model.Scanner
import Verif.Spec.Stream
import Verif.Props.FileRead

/-! The split function and `bufio.Scanner` divide the stream into its pieces. -/

namespace Metro2

open Spec (withoutBreaks Piece Announces)

/-! ### scanRecord -/

theorem filter_breaks (s : Bytes) : s.filter (fun b => b != 13 && b != 10) = withoutBreaks s := by
  unfold Spec.withoutBreaks
  congr 1
  funext c
  have h1 : ('\r'.toNat.toUInt8) = 13 := by decide
  have h2 : ('\n'.toNat.toUInt8) = 10 := by decide
  rw [h1, h2]
  by_cases a : c = 13 <;> by_cases b : c = 10 <;> simp [a, b]

theorem withoutBreaks_cons (c : UInt8) (s : Bytes) :
    withoutBreaks (c :: s) = if c = 13 ∨ c = 10 then withoutBreaks s else c :: withoutBreaks s := by
  unfold Spec.withoutBreaks
  have h1 : ('\r'.toNat.toUInt8) = 13 := by decide
  have h2 : ('\n'.toNat.toUInt8) = 10 := by decide
  rw [h1, h2, List.filter_cons]
  by_cases a : c = 13 <;> by_cases b : c = 10 <;> simp [a, b]

theorem withoutBreaks_length_le (s : Bytes) : (withoutBreaks s).length ≤ s.length := List.length_filter_le ..

theorem stripedLength_eq (s : Bytes) : stripedLength s = (withoutBreaks s).length := by
  have : ∀ n, s.foldl (fun n b => if b = 13 then n else if b = 10 then n else n + 1) n =
      n + (withoutBreaks s).length := by
    induction s with
    | nil => intro n; rfl
    | cons c s ih =>
      intro n
      rw [List.foldl_cons, ih, withoutBreaks_cons]
      by_cases a : c = 13 <;> by_cases b : c = 10 <;> simp [a, b] <;> omega
  simpa [stripedLength] using this 0

/-- Number of bytes other than line breaks among the first `i`. -/
def count (s : Bytes) (i : Nat) : Nat := (withoutBreaks (s.take i)).length

theorem count_zero (s : Bytes) : count s 0 = 0 := rfl

theorem count_succ (s : Bytes) (i : Nat) :
    count s (i + 1) = count s i + (match s[i]? with | some c => if c = 13 ∨ c = 10 then 0 else 1 | none => 0) := by
  unfold count
  rw [List.take_add_one, withoutBreaks_append, List.length_append]
  cases s[i]? with
  | none => rfl
  | some c =>
    simp only [Option.toList_some]
    rw [withoutBreaks_cons]
    split <;> simp [Spec.withoutBreaks]

theorem count_le (s : Bytes) (i : Nat) : count s i ≤ i := by
  have := withoutBreaks_length_le (s.take i)
  rw [List.length_take] at this
  unfold count; omega

theorem count_step (s : Bytes) (i : Nat) : count s i ≤ count s (i + 1) ∧ count s (i + 1) ≤ count s i + 1 := by
  rw [count_succ]
  cases s[i]? with
  | none => simp
  | some c => simp only; split <;> omega

theorem count_mono (s : Bytes) {i j : Nat} (h : i ≤ j) : count s i ≤ count s j := by
  induction h with
  | refl => exact Nat.le_refl _
  | step h ih => exact Nat.le_trans ih (count_step s _).1

theorem count_full (s : Bytes) : count s s.length = (withoutBreaks s).length := by
  unfold count; rw [List.take_length]

theorem stripedDataLoop_some {data : Bytes} {size : Nat} :
    ∀ (n i k : Nat), i ≤ k → k < i + n → count data k = size → (∀ j, i ≤ j → j < k → count data j ≠ size) →
    stripedDataLoop data size n i = some (k, withoutBreaks (data.take k)) := by
  intro n
  induction n with
  | zero => intro i k h1 h2; omega
  | succ n ih =>
    intro i k h1 h2 h3 h4
    rw [stripedDataLoop]
    simp only [filter_breaks]
    rw [show (withoutBreaks (data.take i)).length = count data i from rfl]
    by_cases hi : i = k
    · subst hi; rw [if_pos h3]
    · rw [if_neg (h4 i (Nat.le_refl _) (by omega)), ih (i + 1) k (by omega) (by omega) h3
        (fun j a b => h4 j (by omega) b)]

theorem stripedDataLoop_none {data : Bytes} {size : Nat} :
    ∀ (n i : Nat), (∀ j, i ≤ j → j < i + n → count data j ≠ size) → stripedDataLoop data size n i = none := by
  intro n
  induction n with
  | zero => intro i _; rfl
  | succ n ih =>
    intro i h
    rw [stripedDataLoop]
    simp only [filter_breaks]
    rw [show (withoutBreaks (data.take i)).length = count data i from rfl]
    rw [if_neg (h i (Nat.le_refl _) (by omega)), ih (i + 1) (fun j a b => h j (by omega) (by omega))]

/-- The first position at which the count is reached. -/
theorem exists_first (s : Bytes) (size : Nat) (h : size ≤ (withoutBreaks s).length) :
    ∃ k, k ≤ s.length ∧ count s k = size ∧ ∀ j, j < k → count s j < size := by
  have : ∀ n, n ≤ s.length → size ≤ count s n → ∃ k, k ≤ n ∧ count s k = size ∧ ∀ j, j < k → count s j < size := by
    intro n
    induction n with
    | zero =>
      intro _ h0
      exact ⟨0, Nat.le_refl _, by rw [count_zero] at h0 ⊢; omega, fun j hj => absurd hj (by omega)⟩
    | succ n ih =>
      intro hn hs
      by_cases hc : size ≤ count s n
      · obtain ⟨k, h1, h2⟩ := ih (by omega) hc
        exact ⟨k, by omega, h2⟩
      · refine ⟨n + 1, Nat.le_refl _, ?_, ?_⟩
        · have := (count_step s n).2; omega
        · intro j hj
          have := count_mono s (show j ≤ n by omega)
          omega
  exact this s.length (Nat.le_refl _) (by rw [count_full]; exact h)

theorem stripedData_eq {data : Bytes} {size k : Nat} (hk : k ≤ data.length) (h1 : count data k = size)
    (h2 : ∀ j, j < k → count data j < size) :
    stripedData data size = some (k, withoutBreaks (data.take k)) := by
  have := count_le data k
  refine stripedDataLoop_some _ _ _ (by omega) (by omega) h1 ?_
  intro j _ hj
  have := h2 j hj
  omega

theorem stripedData_none {data : Bytes} {size : Nat} (h : (withoutBreaks data).length < size) :
    stripedData data size = none := by
  refine stripedDataLoop_none _ _ ?_
  intro j h1 h2
  by_cases hj : j ≤ data.length
  · have := count_mono data hj
    rw [count_full] at this
    omega
  · omega

theorem withoutBreaks_take {s : Bytes} {i : Nat} : withoutBreaks (s.take i) = (withoutBreaks s).take (count s i) := by
  have h : withoutBreaks s = withoutBreaks (s.take i) ++ withoutBreaks (s.drop i) := by
    rw [← withoutBreaks_append, List.take_append_drop]
  rw [h]
  exact (List.take_left' rfl).symm

/-- `getStripedData` succeeds iff there are enough bytes. -/
theorem stripedData_spec (data : Bytes) (size : Nat) :
    ((withoutBreaks data).length < size ∧ stripedData data size = none) ∨
    ∃ k, k ≤ data.length ∧ count data k = size ∧ (∀ j, j < k → count data j < size) ∧
      stripedData data size = some (k, (withoutBreaks data).take size) := by
  by_cases h : (withoutBreaks data).length < size
  · exact .inl ⟨h, stripedData_none h⟩
  · obtain ⟨k, h1, h2, h3⟩ := exists_first data size (by omega)
    refine .inr ⟨k, h1, h2, h3, ?_⟩
    rw [stripedData_eq h1 h2 h3, withoutBreaks_take, h2]

theorem scanSize_iff {w : Bytes} (hw : w.length = 4) (n : Nat) : scanSize w = some n ↔ Announces w n := by
  unfold scanSize Spec.Announces
  have hp := fun v => parseIntBits_ok_iff (bits := 32) (s := w) (v := v)
  cases hq : parseIntBits 32 w with
  | ok v =>
    simp only
    have h1 := (hp v).1 hq
    constructor
    · intro h
      split at h
      · simp at h
      · cases h
        left
        rw [show ((v.toNat : Nat) : Int) = v from by omega]
        exact ⟨h1.1, by omega⟩
    · rintro (⟨h2, h3⟩ | ⟨h2, -⟩)
      · have h4 := signedDecimal_lt h2
        have : parseIntBits 32 w = .ok (n : Int) := (hp n).2 ⟨h2, by omega, by rw [hw] at h4; omega⟩
        rw [hq] at this
        cases this
        rw [if_neg (by omega)]
        simp
      · exact absurd h1.1 (h2 v)
  | error e =>
    simp only [spec_bigEndian_iff]
    have hno : ∀ v, ¬ Spec.SignedDecimal w v := by
      intro v hv
      have h4 := signedDecimal_lt hv
      have h5 : -(10 ^ 4 : Int) < v := by
        obtain ⟨ds, m, -, hd, h⟩ := hv
        rcases h with ⟨-, rfl⟩ | ⟨-, rfl⟩ | ⟨rfl, rfl⟩
        · omega
        · omega
        · have hs : Spec.SignedDecimal (43 :: ds) (m : Int) := ⟨ds, m, by rintro rfl; simp at hw, hd, .inr (.inl ⟨rfl, rfl⟩)⟩
          have := signedDecimal_lt hs
          simp only [List.length_cons] at this hw
          rw [hw] at this
          omega
      have := (hp v).2 ⟨hv, by omega, by rw [hw] at h4; omega⟩
      rw [hq] at this
      cases this
    constructor
    · intro h
      split at h
      · simp at h
      · cases h; exact .inr ⟨hno, rfl, by omega⟩
    · rintro (⟨h2, -⟩ | ⟨-, h3, h4⟩)
      · exact absurd h2 (hno _)
      · rw [if_neg (by omega), h3]

/-- The length announced is at least 366. -/
theorem announces_ge {w : Bytes} {n : Nat} (h : Announces w n) : 366 ≤ n := by
  rcases h with ⟨-, h⟩ | ⟨-, -, h⟩ <;> omega

theorem announces_unique {w : Bytes} (hw : w.length = 4) {n m : Nat} (h1 : Announces w n) (h2 : Announces w m) : n = m := by
  have h1 := (scanSize_iff hw n).2 h1
  have h2 := (scanSize_iff hw m).2 h2
  rw [h1] at h2
  exact Option.some.inj h2

/-- The positions in a longer text. -/
theorem count_append {a b : Bytes} {i : Nat} (h : i ≤ a.length) : count (a ++ b) i = count a i := by
  unfold count; rw [List.take_append_of_le_length h]

/-- A piece is the shortest prefix with its number of bytes. -/
theorem piece_first {a : Bytes} (h : Piece a) : ∀ j, j < a.length → count a j < (withoutBreaks a).length := by
  intro j hj
  have hne : a ≠ [] := by rintro rfl; simp at hj
  obtain ⟨a', c, rfl⟩ : ∃ a' c, a = a' ++ [c] := ⟨a.dropLast, a.getLast hne, (List.dropLast_append_getLast hne).symm⟩
  have hc := h.2.2 c (by simp)
  have h1 : ('\r'.toNat.toUInt8) = 13 := by decide
  have h2 : ('\n'.toNat.toUInt8) = 10 := by decide
  rw [h1, h2] at hc
  rw [List.length_append, List.length_singleton] at hj
  have := count_mono (a' ++ [c]) (show j ≤ a'.length by omega)
  rw [count_append (Nat.le_refl _), count_full] at this
  rw [withoutBreaks_append, withoutBreaks_cons, if_neg (by simp [hc]), List.length_append]
  simp
  omega

/-- The split function finds the piece at the beginning. -/
theorem scanRecord_piece {a : Bytes} (h : Piece a) (b : Bytes) (eof : Bool) :
    scanRecord (a ++ b) eof = .token a.length (withoutBreaks a) := by
  have hf := piece_first h
  obtain ⟨h4, hann, -⟩ := h
  have hlen : (withoutBreaks (a ++ b)).length = (withoutBreaks a).length + (withoutBreaks b).length := by
    rw [withoutBreaks_append, List.length_append]
  unfold scanRecord
  simp only [stripedLength_eq]
  rw [if_neg (by omega), if_neg (by omega), if_neg (by omega)]
  rcases stripedData_spec (a ++ b) 4 with ⟨h, -⟩ | ⟨k, -, -, -, h⟩
  · omega
  · rw [h]
    simp only
    have ht : (withoutBreaks (a ++ b)).take 4 = (withoutBreaks a).take 4 := by
      rw [withoutBreaks_append, List.take_append_of_le_length h4]
    rw [ht, (scanSize_iff (by rw [List.length_take]; omega) _).2 hann]
    simp only
    rw [if_pos (by omega), stripedData_eq (k := a.length) (by simp) (by rw [count_append (Nat.le_refl _), count_full])
      (fun j hj => by rw [count_append (by omega)]; exact hf j hj), List.take_left]

theorem scanRecord_token {data : Bytes} {eof : Bool} {i : Nat} {tok : Bytes}
    (h : scanRecord data eof = .token i tok) :
    i ≤ data.length ∧ Piece (data.take i) ∧ tok = withoutBreaks (data.take i) := by
  unfold scanRecord at h
  simp only [stripedLength_eq] at h
  split at h
  · simp at h
  · split at h
    · simp at h
    · split at h
      · simp at h
      · next h4 =>
        rcases stripedData_spec data 4 with ⟨h', -⟩ | ⟨k, -, -, -, h'⟩
        · omega
        · rw [h'] at h
          simp only at h
          split at h
          · simp at h
          · next size hs =>
            split at h
            · next hle =>
              rcases stripedData_spec data size with ⟨h', -⟩ | ⟨k, k1, k2, k3, h'⟩
              · omega
              · rw [h'] at h
                simp only [Split.token.injEq] at h
                obtain ⟨rfl, rfl⟩ := h
                have hwl : ((withoutBreaks data).take 4).length = 4 := by rw [List.length_take]; omega
                have hann := (scanSize_iff hwl _).1 hs
                have hge := announces_ge hann
                have hwb : withoutBreaks (data.take k) = (withoutBreaks data).take size := by
                  rw [withoutBreaks_take, k2]
                have hl : (withoutBreaks (data.take k)).length = size := by
                  rw [hwb, List.length_take]; omega
                refine ⟨k1, ⟨by omega, ?_, ?_⟩, hwb.symm⟩
                · rw [hl, hwb, List.take_take, Nat.min_eq_left (by omega)]; exact hann
                · intro c hc
                  have hk0 : 0 < k := by
                    rcases Nat.eq_zero_or_pos k with rfl | h0
                    · rw [count_zero] at k2; omega
                    · exact h0
                  have hlast : data[k - 1]? = some c := by
                    rw [List.getLast?_eq_getElem?, List.length_take, Nat.min_eq_left k1,
                      List.getElem?_take_of_lt (by omega)] at hc
                    exact hc
                  have := k3 (k - 1) (by omega)
                  have hs := count_succ data (k - 1)
                  rw [hlast, show k - 1 + 1 = k from by omega] at hs
                  simp only at hs
                  have h1 : ('\r'.toNat.toUInt8) = 13 := by decide
                  have h2 : ('\n'.toNat.toUInt8) = 10 := by decide
                  rw [h1, h2]
                  split at hs
                  · omega
                  · next hn => exact ⟨fun e => hn (.inl e), fun e => hn (.inr e)⟩
            · split at h <;> simp at h

/-- If the split function gives up before the end, no piece begins here. -/
theorem scanRecord_fail {data : Bytes} (h : scanRecord data false = .fail) (rest a b : Bytes)
    (hab : data ++ rest = a ++ b) : ¬ Piece a := by
  intro hp
  unfold scanRecord at h
  simp only [stripedLength_eq, Bool.false_eq_true, false_and, and_false, if_false] at h
  split at h
  · simp at h
  · next h4 =>
    rcases stripedData_spec data 4 with ⟨h', -⟩ | ⟨k, -, -, -, h'⟩
    · omega
    · rw [h'] at h
      simp only at h
      have hpre : (withoutBreaks data).take 4 = (withoutBreaks a).take 4 := by
        have e := congrArg (fun s => (withoutBreaks s).take 4) hab
        simp only [withoutBreaks_append] at e
        rwa [List.take_append_of_le_length (by omega), List.take_append_of_le_length hp.1] at e
      rw [hpre, (scanSize_iff (by rw [List.length_take]; have := hp.1; omega) _).2 hp.2.1] at h
      simp only at h
      split at h
      · next hle =>
        rcases stripedData_spec data (withoutBreaks a).length with ⟨h', -⟩ | ⟨k, -, -, -, h'⟩
        · omega
        · rw [h'] at h; simp at h
      · simp at h

/-- At the end of the input the split function finds a token or stops. -/
theorem scanRecord_eof {data : Bytes} (h : scanRecord data true = .more) (a b : Bytes) (hab : data = a ++ b) :
    ¬ Piece a := by
  intro hp
  subst hab
  rw [scanRecord_piece hp] at h
  simp at h

/-! ### bufio.Scanner -/

/-- The reader never returns nothing a hundred and one times in a row. -/
def Plan.Progress (p : Plan) : Prop := ∀ k, ∃ j, j < 101 ∧ 0 < p.wish (k + j)

/-- What the scanner will still see. -/
def Scanner.input (s : Scanner) : Bytes := s.window ++ (if s.err then [] else s.rest)

structure Scanner.Ok (s : Scanner) : Prop where
  fit : s.start + s.window.length ≤ s.cap
  cap : s.cap ≤ maxTokenSize

theorem newScanner_ok (data : Bytes) : (newScanner data).Ok := ⟨by simp [newScanner], by simp [newScanner]⟩

theorem newScanner_input (data : Bytes) : (newScanner data).input = data := by
  simp [newScanner, Scanner.input]

theorem Scanner.shift_ok {s : Scanner} (h : s.Ok) : s.shift.Ok ∧ s.shift.window = s.window := by
  unfold Scanner.shift
  split
  · exact ⟨⟨by have := h.fit; simp only; omega, h.cap⟩, rfl⟩
  · exact ⟨h, rfl⟩

theorem Scanner.grow_none {s : Scanner} (hs : s.Ok) (h : s.shift.grow = none) : s.window.length = maxTokenSize := by
  have h1 := hs.fit
  have h2 := hs.cap
  unfold Scanner.grow at h
  unfold Scanner.shift at h
  split at h
  · next hc =>
    simp only at h
    split at h
    · split at h
      · simp only at *; omega
      · simp at h
    · simp at h
  · next hc =>
    split at h
    · next he =>
      split at h
      · have : s.start = 0 := by
          by_contra hn
          exact hc ⟨by omega, .inl he⟩
        omega
      · simp at h
    · simp at h

theorem Scanner.grow_some {s t : Scanner} (hs : s.Ok) (h : s.grow = some t) :
    t.Ok ∧ t.window = s.window ∧ t.start + t.window.length < t.cap := by
  have h1 := hs.fit
  have h2 := hs.cap
  unfold Scanner.grow at h
  split at h
  · split at h
    · simp at h
    · next hc =>
      cases h
      have h3 : 0 < startBufSize ∧ startBufSize ≤ maxTokenSize := by decide
      refine ⟨⟨?_, ?_⟩, rfl, ?_⟩
      all_goals simp only
      all_goals split <;> omega
  · cases h; exact ⟨hs, rfl, by omega⟩

theorem Scanner.read_ok {p : Plan} {s : Scanner} (hs : s.Ok) (he : s.err = false) :
    (s.read p (s.cap - (s.start + s.window.length))).1.Ok ∧
    (s.read p (s.cap - (s.start + s.window.length))).1.input = s.input := by
  have h1 := hs.fit
  have h2 := hs.cap
  unfold Scanner.read
  simp only
  generalize hn : min (p.wish s.calls) (min (s.cap - (s.start + s.window.length)) s.rest.length) = n
  refine ⟨⟨?_, h2⟩, ?_⟩
  · simp only [List.length_append, List.length_take]; omega
  · unfold Scanner.input
    simp only [he, Bool.false_eq_true, if_false]
    by_cases hl : s.rest.length = n
    · rw [List.take_of_length_le (by omega), List.drop_of_length_le (by omega)]
      simp
    · have : decide (s.rest.length = n) = false := by simpa using hl
      rw [this]
      simp only [Bool.false_and, Bool.false_eq_true, if_false]
      rw [List.append_assoc, List.take_append_drop]

theorem Scanner.fill_ok {p : Plan} (n : Nat) (s : Scanner) (hs : s.Ok) (he : s.err = false)
    (hf : s.start + s.window.length < s.cap) (hp : s.rest = [] ∨ ∃ j, j < n ∧ 0 < p.wish (s.calls + j)) :
    (s.fill p n).Ok ∧ (s.fill p n).input = s.input := by
  induction n generalizing s with
  | zero =>
    rcases hp with h | ⟨j, hj, -⟩
    · exact ⟨⟨hs.fit, hs.cap⟩, by simp [Scanner.fill, Scanner.input, he, h]⟩
    · omega
  | succ n ih =>
    unfold Scanner.fill
    simp only
    have hr := Scanner.read_ok (p := p) hs he
    generalize hq : s.read p (s.cap - (s.start + s.window.length)) = r at hr
    by_cases h1 : r.1.err = true
    · rw [if_pos h1]; exact hr
    · rw [if_neg h1]
      by_cases h2 : 0 < r.2
      · rw [if_pos h2]; exact hr
      · rw [if_neg h2]
        have hz : r.2 = 0 := by omega
        have hfields : r.1.start = s.start ∧ r.1.window = s.window ∧ r.1.cap = s.cap ∧ r.1.calls = s.calls + 1 ∧
            r.1.rest = s.rest ∧ (s.rest ≠ [] → p.wish s.calls = 0) := by
          unfold Scanner.read at hq
          simp only at hq
          generalize hn : min (p.wish s.calls) (min (s.cap - (s.start + s.window.length)) s.rest.length) = n at hq
          subst hq
          simp only at hz
          subst hz
          refine ⟨rfl, by simp, rfl, rfl, by simp, ?_⟩
          intro hne
          have := List.length_pos_iff.2 hne
          omega
        obtain ⟨e1, e2, e3, e4, e5, e6⟩ := hfields
        have := ih r.1 hr.1 (by simpa using h1) (by rw [e1, e2, e3]; exact hf) (by
          rw [e4, e5]
          rcases hp with h | ⟨j, hj, hw⟩
          · exact .inl h
          · by_cases hne : s.rest = []
            · exact .inl hne
            · right
              have := e6 hne
              cases j with
              | zero => rw [Nat.add_zero] at hw; omega
              | succ j => exact ⟨j, by omega, by rw [show s.calls + 1 + j = s.calls + (j + 1) from by omega]; exact hw⟩)
        exact ⟨this.1, this.2.trans hr.2⟩

/-- Two pieces at the same place are the same. -/
theorem piece_unique {a b c d : Bytes} (h : a ++ b = c ++ d) (ha : Piece a) (hc : Piece c) : a = c ∧ b = d := by
  have h1 := scanRecord_piece ha b true
  rw [h, scanRecord_piece hc d true] at h1
  simp only [Split.token.injEq] at h1
  exact List.append_inj h h1.1.symm

/-- One call of `Scan`. -/
theorem Scanner.scan_spec {p : Plan} (hp : p.Progress) : ∀ (m : Nat) (s : Scanner),
    2 * s.rest.length + (if s.err then 0 else 1) < m → s.Ok →
    (∀ a b, s.input = a ++ b → Piece a → a.length ≤ maxTokenSize →
      (s.scan p).2 = some (withoutBreaks a) ∧ (s.scan p).1.Ok ∧ (s.scan p).1.input = b) ∧
    ((∀ a b, s.input = a ++ b → Piece a → maxTokenSize < a.length) →
      (s.scan p).2 = none ∧ (s.scan p).1.Ok ∧
        ∀ a b, (s.scan p).1.input = a ++ b → Piece a → maxTokenSize < a.length) := by
  intro m
  induction m with
  | zero => intro s h; omega
  | succ m ih =>
    intro s hm hs
    have hfit := hs.fit
    have hcap := hs.cap
    rw [Scanner.scan]
    have hnp : ∀ b, ¬ ∃ a, ([] : Bytes) = a ++ b ∧ Piece a := by
      rintro b ⟨a, h1, h2⟩
      have : a = [] := (List.append_eq_nil_iff.1 h1.symm).1
      subst this
      exact absurd h2.1 (by decide)
    have hsplit : s.split = .fail ∨ (∃ i tok, s.split = .token i tok) ∨ s.split = .more := by
      cases s.split
      · exact .inr (.inr rfl)
      · exact .inl rfl
      · exact .inr (.inl ⟨_, _, rfl⟩)
    rcases hsplit with hf | ⟨i, tok, ht⟩ | hmore
    · -- the split function fails
      rw [hf]
      simp only
      have hsr : scanRecord s.window s.err = .fail := by
        unfold Scanner.split at hf
        split at hf
        · exact hf
        · simp at hf
      have hno : ∀ a b, s.input = a ++ b → ¬ Piece a := by
        intro a b hab hpa
        unfold Scanner.input at hab
        cases he : s.err with
        | false => rw [he] at hsr; exact scanRecord_fail hsr _ a b hab hpa
        | true =>
          rw [he] at hsr hab
          simp only [if_true, List.append_nil] at hab
          rw [hab, scanRecord_piece hpa] at hsr
          simp at hsr
      refine ⟨fun a b hab hpa _ => absurd hpa (hno a b hab), fun _ => ⟨trivial, ⟨hfit, hcap⟩, ?_⟩⟩
      intro a b hab hpa
      simp only [Scanner.input, if_true, List.append_nil] at hab
      refine absurd hpa (hno a (b ++ if s.err then [] else s.rest) ?_)
      unfold Scanner.input
      rw [hab, List.append_assoc]
    · -- a token
      rw [ht]
      simp only
      have hsr : scanRecord s.window s.err = .token i tok := by
        unfold Scanner.split at ht
        split at ht
        · exact ht
        · simp at ht
      obtain ⟨t1, t2, t3⟩ := scanRecord_token hsr
      have hin : s.input = s.window.take i ++ (s.window.drop i ++ if s.err then [] else s.rest) := by
        unfold Scanner.input
        rw [← List.append_assoc, List.take_append_drop]
      refine ⟨?_, ?_⟩
      · intro a b hab hpa _
        rw [hin] at hab
        obtain ⟨e1, e2⟩ := piece_unique hab t2 hpa
        refine ⟨by rw [t3, e1], ⟨?_, hcap⟩, ?_⟩
        · simp only [List.length_drop]; omega
        · unfold Scanner.input; simp only; exact e2
      · intro hno
        have := hno _ _ hin t2
        rw [List.length_take] at this
        omega
    · -- more data are needed
      rw [hmore]
      simp only
      have hnw : ∀ a b, s.window = a ++ b → ¬ Piece a := by
        intro a b hab hpa
        have hne : s.window ≠ [] := by
          intro h0
          exact hnp b ⟨a, by rw [← hab, h0], hpa⟩
        unfold Scanner.split at hmore
        rw [if_pos (.inl hne), hab, scanRecord_piece hpa] at hmore
        simp at hmore
      by_cases he : s.err = true
      · rw [dif_pos he]
        have hno : ∀ a b, s.input = a ++ b → ¬ Piece a := by
          intro a b hab
          apply hnw a b
          rw [← hab]
          simp [Scanner.input, he]
        refine ⟨fun a b hab hpa _ => absurd hpa (hno a b hab), fun _ => ⟨rfl, ⟨by simp, hcap⟩, ?_⟩⟩
        intro a b hab hpa
        simp only [Scanner.input, he, if_true, List.append_nil] at hab
        exact absurd ⟨a, hab, hpa⟩ (hnp b)
      · rw [dif_neg he]
        have he' : s.err = false := by simpa using he
        obtain ⟨hso, hsw⟩ := Scanner.shift_ok hs
        obtain ⟨hk1, hk2⟩ := s.shift_keeps
        have hcases : s.shift.grow = none ∨ ∃ t, s.shift.grow = some t := by
          cases s.shift.grow
          · exact .inl rfl
          · exact .inr ⟨_, rfl⟩
        rcases hcases with hg | ⟨t, hg⟩
        · have hlen := Scanner.grow_none hs hg
          split
          · refine ⟨?_, ?_⟩
            · intro a b hab hpa hle
              unfold Scanner.input at hab
              have : s.window = a ++ s.window.drop a.length := by
                have h1 : s.window.take a.length = a := by
                  have := congrArg (List.take a.length) hab
                  rwa [List.take_append_of_le_length (by omega), List.take_left] at this
                conv_lhs => rw [← List.take_append_drop a.length s.window, h1]
              exact absurd hpa (hnw _ _ this)
            · intro _
              refine ⟨rfl, ⟨hso.fit, hso.cap⟩, ?_⟩
              intro a b hab hpa
              simp only [Scanner.input, if_true, List.append_nil, hsw] at hab
              exact absurd hpa (hnw _ _ hab)
          · next t' hg' => rw [hg] at hg'; simp at hg'
        · split
          · next hg' => rw [hg] at hg'; simp at hg'
          · next t' hg' =>
            rw [hg] at hg'
            cases hg'
            obtain ⟨g1, g2, g3⟩ := Scanner.grow_some hso hg
            obtain ⟨g4, g5⟩ := Scanner.grow_keeps hg
            have hte : t.err = false := by rw [g4, hk1, he']
            have hfill := Scanner.fill_ok (p := p) 101 t g1 hte g3 (.inr (hp t.calls))
            have hlt := Scanner.fill_lt p 101 t hte
            have hin : (t.fill p 101).input = s.input := by
              rw [hfill.2]
              unfold Scanner.input
              rw [g2, hsw, g4, hk1, g5, hk2]
            have := ih (t.fill p 101) (by
              rw [g5, hk2] at hlt
              rw [he'] at hm
              rcases hlt with ⟨h6, h7⟩ | ⟨h6, h7⟩ <;> rw [h6] <;> simp at hm ⊢ <;> omega) hfill.1
            rw [hin] at this
            exact this

end Metro2
