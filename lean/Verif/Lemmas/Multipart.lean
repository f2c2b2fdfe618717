import Verif.Spec.Multipart

/-! Forms with parts. -/

namespace Metro2

theorem takeLine_append {l : Bytes} (h : (10 : UInt8) ∉ l) (r : Bytes) : takeLine (l ++ 10 :: r) = some (l ++ [10], r) := by
  induction l with
  | nil => rfl
  | cons c l ih =>
    rw [List.mem_cons, not_or] at h
    rw [List.cons_append, takeLine, if_neg (Ne.symm h.1), ih h.2]
    rfl

theorem prefix_of_free : ∀ {s pat : Bytes} {r : Bytes}, (13 : UInt8) ∉ pat → pat <+: s ++ 13 :: r → pat <+: s
  | _, [], _, _, _ => List.nil_prefix
  | [], d :: pat, r, h, hp => by
    rw [List.nil_append, List.cons_prefix_cons] at hp
    exact absurd (hp.1 ▸ List.mem_cons_self ..) h
  | c :: s, d :: pat, r, h, hp => by
    rw [List.cons_append, List.cons_prefix_cons] at hp
    rw [List.cons_prefix_cons]
    exact ⟨hp.1, prefix_of_free (fun h' => h (List.mem_cons_of_mem _ h')) hp.2⟩

theorem boundary_not {b : Bytes} (h : Spec.Boundary b) {c : UInt8} (hc : c ∈ b) : c ≠ 13 ∧ c ≠ 10 ∧ isTokenChar c = true := by
  have := h.2 c hc
  refine ⟨?_, ?_, ?_⟩
  · rintro rfl; revert this; decide
  · rintro rfl; revert this; decide
  · have h1 : ∀ n : Fin 256, (fun c : UInt8 => (48 ≤ c ∧ c ≤ 57) ∨ (97 ≤ c ∧ c ≤ 122) → isTokenChar c = true) ⟨⟨n⟩⟩ := by decide +kernel
    exact h1 c.toFin this

theorem dash_free {b : Bytes} (h : Spec.Boundary b) : (13 : UInt8) ∉ dashBoundary b ∧ (10 : UInt8) ∉ dashBoundary b := by
  constructor
  · intro h'
    rcases List.mem_append.1 h' with h' | h'
    · revert h'; decide
    · exact (boundary_not h h').1 rfl
  · intro h'
    rcases List.mem_append.1 h' with h' | h'
    · revert h'; decide
    · exact (boundary_not h h').2.1 rfl

theorem isPrefixOf_self_append (a s : Bytes) : a.isPrefixOf (a ++ s) = true := List.isPrefixOf_iff_prefix.2 (List.prefix_append a s)

theorem delimiterLine (b : Bytes) : isDelimiterLine b (dashBoundary b ++ crlf) = true := by
  unfold isDelimiterLine
  rw [isPrefixOf_self_append, List.drop_left]
  rfl

theorem finalLine (b : Bytes) : isFinalLine b (dashBoundary b ++ b! "--" ++ crlf) = true := by
  unfold isFinalLine
  rw [isPrefixOf_self_append, List.drop_left]
  rfl

theorem not_delimiterLine (b : Bytes) : isDelimiterLine b (dashBoundary b ++ b! "--" ++ crlf) = false := by
  unfold isDelimiterLine
  rw [List.append_assoc, isPrefixOf_self_append, List.drop_left]
  rfl

theorem crlf_not (b : Bytes) : isDelimiterLine b crlf = false ∧ isFinalLine b crlf = false := ⟨rfl, rfl⟩

theorem line_delimiter {b : Bytes} (h : Spec.Boundary b) (r : Bytes) :
    takeLine (dashBoundary b ++ (crlf ++ r)) = some (dashBoundary b ++ crlf, r) := by
  have : dashBoundary b ++ (crlf ++ r) = (dashBoundary b ++ [13]) ++ 10 :: r := by simp [crlf]
  rw [this, takeLine_append]
  · simp [crlf]
  · intro h'
    rcases List.mem_append.1 h' with h' | h'
    · exact (dash_free h).2 h'
    · revert h'; decide

theorem line_final {b : Bytes} (h : Spec.Boundary b) (r : Bytes) :
    takeLine (dashBoundary b ++ (b! "--" ++ (crlf ++ r))) = some (dashBoundary b ++ b! "--" ++ crlf, r) := by
  have : dashBoundary b ++ (b! "--" ++ (crlf ++ r)) = (dashBoundary b ++ b! "--" ++ [13]) ++ 10 :: r := by simp [crlf]
  rw [this, takeLine_append]
  · simp [crlf]
  · intro h'
    rcases List.mem_append.1 h' with h' | h'
    · rcases List.mem_append.1 h' with h' | h'
      · exact (dash_free h).2 h'
      · revert h'; decide
    · revert h'; decide

theorem nextPart_delimiter {b : Bytes} (h : Spec.Boundary b) (first expect : Bool) (n : Nat) (r : Bytes) :
    nextPart b first expect (n + 1) (dashBoundary b ++ (crlf ++ r)) = .part r := by
  rw [nextPart, line_delimiter h]
  simp only [delimiterLine, if_true]

theorem nextPart_final {b : Bytes} (h : Spec.Boundary b) (first expect : Bool) (n : Nat) (r : Bytes) :
    nextPart b first expect (n + 1) (dashBoundary b ++ (b! "--" ++ (crlf ++ r))) = .finished := by
  rw [nextPart, line_final h]
  simp only [not_delimiterLine, finalLine, if_true]
  rfl

theorem nextPart_break (b : Bytes) (first : Bool) (n : Nat) (r : Bytes) :
    nextPart b first false (n + 1) (crlf ++ r) = nextPart b first (!first) n r := by
  rw [nextPart]
  have : takeLine (crlf ++ r) = some (crlf, r) := rfl
  rw [this]
  simp only [(crlf_not b).1, (crlf_not b).2]
  cases first <;> rfl

/-! ### Contents -/

/-- What comes after a boundary that does not end a part. -/
theorem after_iff (v : Bytes) : afterBoundary v = false ↔ Spec.NoEnd v := by
  cases v with
  | nil => exact ⟨(fun h => by cases h), fun h => absurd rfl h.1⟩
  | cons c r =>
    unfold afterBoundary Spec.NoEnd
    simp only [Bool.or_eq_false_iff, beq_eq_false_iff_ne, Bool.and_eq_false_iff, ne_eq, reduceCtorEq, not_false_eq_true, true_and, List.head?_cons, Option.some.injEq,
      List.cons_prefix_cons]
    constructor
    · rintro ⟨⟨⟨⟨h1, h2⟩, h3⟩, h4⟩, h5⟩
      refine ⟨h1, h2, h3, h4, ?_⟩
      rintro ⟨rfl, h6⟩
      rcases h5 with h5 | h5
      · exact h5 rfl
      · obtain ⟨r', rfl⟩ := h6
        exact h5 rfl
    · rintro ⟨h1, h2, h3, h4, h5⟩
      refine ⟨⟨⟨⟨h1, h2⟩, h3⟩, h4⟩, ?_⟩
      by_cases hc : c = 45
      · right
        intro h6
        cases r with
        | nil => cases h6
        | cons d r =>
          have : d = 45 := by simpa using h6
          exact h5 ⟨hc.symm, by rw [this]; exact ⟨r, rfl⟩⟩
      · exact .inl hc

theorem after_append (v r : Bytes) : afterBoundary (v ++ 13 :: r) = afterBoundary v := by
  cases v with
  | nil => rfl
  | cons c v =>
    cases v with
    | nil => unfold afterBoundary; simp
    | cons d v => rfl

/-- A boundary that ends a part, at the beginning of a text. -/
theorem atBoundary_append (b v : Bytes) : atBoundary b (crlf ++ dashBoundary b ++ v) = afterBoundary v := by
  unfold atBoundary
  rw [isPrefixOf_self_append, List.drop_left]
  rfl

theorem contentFrom_clear {b : Bytes} (h : Spec.Boundary b) {t : Bytes} (ht : afterBoundary t = true) : ∀ {s : Bytes},
    (∀ u v, s = u ++ (crlf ++ dashBoundary b ++ v) → afterBoundary v = false) →
    contentFrom b (s ++ (crlf ++ dashBoundary b ++ t)) = some (s, crlf ++ dashBoundary b ++ t)
  | [], _ => by
    have : atBoundary b (crlf ++ dashBoundary b ++ t) = true := by rw [atBoundary_append, ht]
    show contentFrom b (13 :: (10 :: dashBoundary b ++ t)) = _
    rw [contentFrom, if_pos]
    · rfl
    · exact this
  | c :: s, hs => by
    rw [List.cons_append, contentFrom, if_neg, contentFrom_clear h ht fun u v e => hs (c :: u) v (by rw [e]; rfl)]
    · rfl
    · intro h'
      have h1 := List.isPrefixOf_iff_prefix.1 (Bool.and_eq_true_iff.1 h').1
      have h2 : (crlf ++ dashBoundary b) <+: c :: s := by
        show (13 :: (10 :: dashBoundary b)) <+: c :: s
        have h3 : (13 :: (10 :: dashBoundary b)) <+: c :: (s ++ 13 :: (10 :: dashBoundary b ++ t)) := h1
        rw [List.cons_prefix_cons] at h3 ⊢
        refine ⟨h3.1, prefix_of_free ?_ h3.2⟩
        intro h4
        rcases List.mem_cons.1 h4 with h4 | h4
        · revert h4; decide
        · exact (dash_free h).1 h4
      obtain ⟨v, hv⟩ := h2
      have h5 := hs [] v hv.symm
      have h6 : c :: (s ++ (crlf ++ dashBoundary b ++ t)) = crlf ++ dashBoundary b ++ (v ++ 13 :: (10 :: dashBoundary b ++ t)) := by
        show (c :: s) ++ _ = _
        rw [← hv, List.append_assoc]
        rfl
      rw [h6, atBoundary_append, after_append, h5] at h'
      cases h'

/-- A boundary inside a content ends it too early. -/
theorem contentFrom_cut {b : Bytes} (r : Bytes) {v : Bytes} (hv : afterBoundary v = true) : ∀ (u : Bytes),
    ∃ x, contentFrom b (u ++ (crlf ++ dashBoundary b ++ v) ++ 13 :: r) = some x ∧ x.1.length ≤ u.length
  | [] => by
    have : atBoundary b (crlf ++ dashBoundary b ++ (v ++ 13 :: r)) = true := by rw [atBoundary_append, after_append, hv]
    rw [List.nil_append, List.append_assoc]
    refine ⟨([], 13 :: (10 :: dashBoundary b ++ (v ++ 13 :: r))), ?_, Nat.le_refl 0⟩
    show contentFrom b (13 :: (10 :: dashBoundary b ++ (v ++ 13 :: r))) = _
    rw [contentFrom, if_pos]
    exact this
  | c :: u => by
    obtain ⟨x, hx, hl⟩ := contentFrom_cut r hv u
    rw [List.cons_append, List.cons_append, contentFrom]
    split
    · exact ⟨_, rfl, Nat.zero_le _⟩
    · rw [hx]
      exact ⟨_, rfl, by simp only [List.length_cons]; omega⟩

theorem clear_iff (b s : Bytes) : Spec.Clear b s ↔ ∀ u v, [13, 10] ++ s = u ++ (crlf ++ dashBoundary b ++ v) → afterBoundary v = false := by
  unfold Spec.Clear
  constructor
  · intro h u v e
    rw [after_iff]
    exact h u v (by rw [e]; simp [crlf, dashBoundary])
  · intro h u v e
    rw [← after_iff]
    exact h u v (by rw [e]; simp [crlf, dashBoundary])

theorem partContent_clear {b : Bytes} (h : Spec.Boundary b) {t : Bytes} (ht : afterBoundary t = true) {s : Bytes} (hs : Spec.Clear b s) :
    partContent b (s ++ (crlf ++ dashBoundary b ++ t)) = some (s, crlf ++ dashBoundary b ++ t) := by
  rw [clear_iff] at hs
  unfold partContent
  rw [if_neg, contentFrom_clear h ht]
  · intro u v e
    exact hs ([13, 10] ++ u) v (by rw [e]; simp)
  · intro h'
    have h1 := List.isPrefixOf_iff_prefix.1 (Bool.and_eq_true_iff.1 h').1
    have h2 : dashBoundary b <+: s := prefix_of_free (dash_free h).1 h1
    obtain ⟨v, rfl⟩ := h2
    have h3 := (Bool.and_eq_true_iff.1 h').2
    rw [List.append_assoc, List.drop_left] at h3
    have h4 : v ++ (crlf ++ dashBoundary b ++ t) = v ++ 13 :: (10 :: dashBoundary b ++ t) := rfl
    rw [h4, after_append, hs [] v rfl] at h3
    cases h3

theorem partContent_cut {b : Bytes} {s : Bytes} (hs : ¬ Spec.Clear b s) (t : Bytes) :
    ∃ x, partContent b (s ++ (crlf ++ dashBoundary b ++ t)) = some x ∧ x.1 ≠ s := by
  rw [clear_iff] at hs
  obtain ⟨u, hs⟩ := Classical.not_forall.1 hs
  obtain ⟨v, hs⟩ := Classical.not_forall.1 hs
  obtain ⟨e, hv⟩ := Classical.not_imp.1 hs
  have hv : afterBoundary v = true := by simpa using hv
  unfold partContent
  split
  · rename_i hp
    refine ⟨_, rfl, ?_⟩
    intro hnil
    have hnil : s = [] := hnil.symm
    subst hnil
    have hp := List.isPrefixOf_iff_prefix.1 (Bool.and_eq_true_iff.1 hp).1
    rw [List.nil_append] at hp
    have : (45 :: (45 :: b)) <+: 13 :: (10 :: (dashBoundary b ++ t)) := hp
    rw [List.cons_prefix_cons] at this
    exact absurd this.1 (by decide)
  · rename_i hp
    match u, e with
    | [], e =>
      exfalso
      apply hp
      have e : s = dashBoundary b ++ v := by simpa [crlf] using e
      rw [e, List.append_assoc, isPrefixOf_self_append, List.drop_left]
      show (true && afterBoundary (v ++ 13 :: (10 :: dashBoundary b ++ t))) = true
      rw [after_append, hv]
      rfl
    | [c], e =>
      have := (List.cons.inj (List.cons.inj e).2).1
      exact absurd this (by decide)
    | c :: d :: u, e =>
      have e : s = u ++ (crlf ++ dashBoundary b ++ v) := (List.cons.inj (List.cons.inj e).2).2
      obtain ⟨x, hx, hl⟩ := contentFrom_cut (b := b) (10 :: dashBoundary b ++ t) hv u
      refine ⟨x, by rw [e]; exact hx, ?_⟩
      intro h
      rw [h, e] at hl
      simp only [List.length_append, crlf, List.length_cons, List.length_nil] at hl
      omega

/-! ### Headers -/

theorem escape_free (s : Bytes) : (10 : UInt8) ∉ escapeQuotes s := by
  induction s with
  | nil => exact List.not_mem_nil
  | cons c r ih =>
    rw [escapeQuotes]
    intro h
    rcases List.mem_append.1 h with h | h
    · revert h
      split
      · decide
      · split
        · decide
        · split
          · decide
          · split
            · decide
            · rename_i h4
              intro h
              exact h4 (List.mem_singleton.1 h).symm
    · exact ih h

theorem unquote_escape (s r : Bytes) : unquote (escapeQuotes s ++ 34 :: r) = some (Spec.percent s, r) := by
  induction s with
  | nil => rw [escapeQuotes, List.nil_append, unquote]; rfl
  | cons c s ih =>
    have hp : Spec.percent (c :: s) = (if c = 13 then b! "%0D" else if c = 10 then b! "%0A" else [c]) ++ Spec.percent s := rfl
    rw [escapeQuotes, hp]
    by_cases h1 : c = 92
    · subst h1
      show unquote (92 :: 92 :: (escapeQuotes s ++ 34 :: r)) = _
      rw [unquote, if_pos (by decide +kernel), ih]
      rfl
    · by_cases h2 : c = 34
      · subst h2
        show unquote (92 :: 34 :: (escapeQuotes s ++ 34 :: r)) = _
        rw [unquote, if_pos (by decide +kernel), ih]
        rfl
      · by_cases h3 : c = 13
        · subst h3
          show unquote (37 :: 48 :: 68 :: (escapeQuotes s ++ 34 :: r)) = _
          rw [unquote.eq_4 _ _ (by decide) (by rintro _ _ h; cases h), unquote.eq_4 _ _ (by decide) (by rintro _ _ h; cases h), unquote.eq_4 _ _ (by decide) (by rintro _ _ h; cases h), ih]
          rfl
        · by_cases h4 : c = 10
          · subst h4
            show unquote (37 :: 48 :: 65 :: (escapeQuotes s ++ 34 :: r)) = _
            rw [unquote.eq_4 _ _ (by decide) (by rintro _ _ h; cases h), unquote.eq_4 _ _ (by decide) (by rintro _ _ h; cases h), unquote.eq_4 _ _ (by decide) (by rintro _ _ h; cases h), ih]
            rfl
          · rw [if_neg h1, if_neg h2, if_neg h3, if_neg h4]
            show unquote (c :: (escapeQuotes s ++ 34 :: r)) = _
            rw [unquote.eq_4 _ _ h2 (by rintro _ _ h; exact absurd h h1), if_neg (by simp [h3, h4]), ih]
            rfl

theorem escape_ne {s : Bytes} (h : s ≠ []) : Spec.percent s ≠ [] := by
  cases s with
  | nil => exact absurd rfl h
  | cons c r =>
    show (if c = 13 then b! "%0D" else if c = 10 then b! "%0A" else [c]) ++ Spec.percent r ≠ []
    split
    · simp
    · split <;> simp

theorem chomp_crlf (l : Bytes) : chompLine (l ++ crlf) = l := by
  unfold chompLine
  simp [crlf]

theorem trim_quoted (c : UInt8) (l : Bytes) (d : UInt8) (hc : (c == 32 || c == 9) = false) (hd : (d == 32 || d == 9) = false) :
    trimLine (c :: (l ++ [d]) ++ crlf) = c :: (l ++ [d]) := by
  unfold trimLine
  rw [chomp_crlf]
  have h1 : skipBlanks (c :: (l ++ [d])) = c :: (l ++ [d]) := by
    unfold skipBlanks
    rw [List.dropWhile_cons, hc]
    rfl
  rw [h1, List.reverse_cons, List.reverse_append]
  have h2 : skipBlanks (([d] : Bytes).reverse ++ l.reverse ++ [c]) = [d].reverse ++ l.reverse ++ [c] := by
    unfold skipBlanks
    show List.dropWhile _ (d :: (l.reverse ++ [c])) = _
    rw [List.dropWhile_cons, hd]
    rfl
  rw [h2]
  simp

theorem mimeLine_take {l : Bytes} (h : (10 : UInt8) ∉ l) (r : Bytes) : takeLine (l ++ (crlf ++ r)) = some (l ++ crlf, r) := by
  have : l ++ (crlf ++ r) = (l ++ [13]) ++ 10 :: r := by simp [crlf]
  rw [this, takeLine_append]
  · simp [crlf]
  · intro h'
    rcases List.mem_append.1 h' with h' | h'
    · exact h h'
    · revert h'; decide

theorem mime_end (n : Nat) (r : Bytes) : readMimeHeader (n + 1) (crlf ++ r) = some ([], r) := rfl

/-- The value of `Content-Disposition`. -/
def dispositionOf (p : FormPart) : Bytes :=
  b! "form-data; name=\"" ++ escapeQuotes p.name ++ b! "\"" ++ (match p.file with
    | none => []
    | some n => b! "; filename=\"" ++ escapeQuotes n ++ b! "\"")

/-- All headers of a part. -/
def headersOf (p : FormPart) : List (Bytes × Bytes) :=
  (b! "Content-Disposition", dispositionOf p) :: (match p.file with
    | none => []
    | some _ => [(b! "Content-Type", b! "application/octet-stream")])

theorem mime_line (n : Nat) {l : Bytes} (h : (10 : UInt8) ∉ l) (r : Bytes) :
    readMimeHeader (n + 1) (b! "Content-Disposition: form-data; name=\"" ++ l ++ b! "\"" ++ (crlf ++ r)) =
      (readMimeHeader n r).map fun x => ((b! "Content-Disposition", b! "form-data; name=\"" ++ l ++ b! "\"") :: x.1, x.2) := by
  have hl : (10 : UInt8) ∉ b! "Content-Disposition: form-data; name=\"" ++ l ++ b! "\"" := by
    intro h'
    rcases List.mem_append.1 h' with h' | h'
    · rcases List.mem_append.1 h' with h' | h'
      · revert h'; decide
      · exact h h'
    · revert h'; decide
  rw [readMimeHeader, mimeLine_take hl]
  have ht : trimLine (b! "Content-Disposition: form-data; name=\"" ++ l ++ b! "\"" ++ crlf) = b! "Content-Disposition: form-data; name=\"" ++ l ++ b! "\"" :=
    trim_quoted 67 (b! "ontent-Disposition: form-data; name=\"" ++ l) 34 rfl rfl
  simp only [ht]
  rfl

theorem mime_type (n : Nat) (r : Bytes) :
    readMimeHeader (n + 1) (b! "Content-Type: application/octet-stream" ++ (crlf ++ r)) =
      (readMimeHeader n r).map fun x => ((b! "Content-Type", b! "application/octet-stream") :: x.1, x.2) := by
  rw [readMimeHeader, mimeLine_take (by decide)]
  have ht : trimLine (b! "Content-Type: application/octet-stream" ++ crlf) = b! "Content-Type: application/octet-stream" := by decide +kernel
  simp only [ht]
  rfl

theorem mime_header (p : FormPart) (n : Nat) (r : Bytes) : readMimeHeader (n + 3) (p.header ++ r) = some (headersOf p, r) := by
  cases hf : p.file with
  | none =>
    have : p.header ++ r = b! "Content-Disposition: form-data; name=\"" ++ escapeQuotes p.name ++ b! "\"" ++ (crlf ++ (crlf ++ r)) := by
      unfold FormPart.header
      rw [hf]
      simp only [List.append_assoc]
    rw [this, mime_line _ (escape_free _), mime_end]
    unfold headersOf dispositionOf
    rw [hf]
    simp
  | some f =>
    have : p.header ++ r = b! "Content-Disposition: form-data; name=\"" ++ (escapeQuotes p.name ++ b! "\"" ++ b! "; filename=\"" ++ escapeQuotes f) ++ b! "\"" ++
        (crlf ++ (b! "Content-Type: application/octet-stream" ++ (crlf ++ (crlf ++ r)))) := by
      unfold FormPart.header
      rw [hf]
      simp only [List.append_assoc]
    rw [this, mime_line, mime_type, mime_end]
    · unfold headersOf dispositionOf
      rw [hf]
      simp
    · intro h
      rcases List.mem_append.1 h with h | h
      · rcases List.mem_append.1 h with h | h
        · rcases List.mem_append.1 h with h | h
          · exact escape_free _ h
          · revert h; decide
        · revert h; decide
      · exact escape_free _ h

theorem param_name (s r : Bytes) : consumeParam (b! "; name=\"" ++ (escapeQuotes s ++ (34 :: r))) = some (b! "name", Spec.percent s, r) := by
  show (unquote (escapeQuotes s ++ (34 :: r))).map _ = _
  rw [unquote_escape]
  rfl

theorem param_file (s r : Bytes) : consumeParam (b! "; filename=\"" ++ (escapeQuotes s ++ (34 :: r))) = some (b! "filename", Spec.percent s, r) := by
  show (unquote (escapeQuotes s ++ (34 :: r))).map _ = _
  rw [unquote_escape]
  rfl

theorem media_disposition (p : FormPart) :
    parseMediaType (dispositionOf p) = some (b! "form-data", (b! "name", Spec.percent p.name) :: (match p.file with
      | none => []
      | some f => [(b! "filename", Spec.percent f)])) := by
  have h1 : (dispositionOf p).takeWhile (· != 59) = b! "form-data" := by
    unfold dispositionOf
    rfl
  have h2 : (dispositionOf p).dropWhile (· != 59) = b! "; name=\"" ++ (escapeQuotes p.name ++ (34 :: (match p.file with
      | none => []
      | some n => b! "; filename=\"" ++ (escapeQuotes n ++ [34])))) := by
    unfold dispositionOf
    have : b! "form-data; name=\"" ++ escapeQuotes p.name ++ b! "\"" ++ (match p.file with
      | none => []
      | some n => b! "; filename=\"" ++ escapeQuotes n ++ b! "\"") = b! "form-data" ++ (b! "; name=\"" ++ (escapeQuotes p.name ++ (34 :: (match p.file with
      | none => []
      | some n => b! "; filename=\"" ++ (escapeQuotes n ++ [34]))))) := by
      cases p.file <;> simp
    rw [this]
    rfl
  have hlen : ∃ k, (dispositionOf p).length + 1 = k + 3 := ⟨(dispositionOf p).length - 2, by
    have : 17 ≤ (dispositionOf p).length := by
      unfold dispositionOf
      simp
    omega⟩
  obtain ⟨k, hk⟩ := hlen
  unfold parseMediaType
  rw [h1, h2, hk, mediaParams]
  rw [if_neg (by intro h; cases h), param_name]
  simp only [List.lookup_nil]
  rw [mediaParams]
  cases hf : p.file with
  | none => rfl
  | some f =>
    simp only
    rw [if_neg (by intro h; cases h), param_file]
    rfl

theorem names_of (p : FormPart) (hn : p.name ≠ []) (hf : p.file ≠ some []) : partNames (headersOf p) = some ((Spec.arrived p).name, (Spec.arrived p).file) := by
  have h : partNames (headersOf p) = partNames [(b! "Content-Disposition", dispositionOf p)] := by
    unfold headersOf partNames
    rfl
  rw [h]
  unfold partNames
  have h0 : List.find? (fun h => equalFold h.1 (b! "Content-Disposition")) [(b! "Content-Disposition", dispositionOf p)] = some (b! "Content-Disposition", dispositionOf p) := rfl
  rw [h0]
  simp only [media_disposition, if_true]
  have h2 : List.lookup (b! "name") ((b! "name", Spec.percent p.name) :: (match p.file with
      | none => []
      | some f => [(b! "filename", Spec.percent f)])) = some (Spec.percent p.name) := rfl
  rw [h2]
  simp only [if_neg (escape_ne hn)]
  unfold Spec.arrived
  cases hfile : p.file with
  | none => rfl
  | some f =>
    have : Spec.percent f ≠ [] := escape_ne (fun h => hf (by rw [hfile, h]))
    show some (Spec.percent p.name, if Spec.percent f = [] then none else some (pathBase (Spec.percent f))) = _
    rw [if_neg this]
    rfl

/-! ### Forms -/

theorem readParts_end {b : Bytes} (h : Spec.Boundary b) (first : Bool) (n : Nat) : readParts b first (n + 1) (multipartEnd b) = some [] := by
  have : multipartEnd b = crlf ++ (dashBoundary b ++ (b! "--" ++ (crlf ++ []))) := by simp [multipartEnd]
  rw [readParts]
  have hn : nextPart b first false ((multipartEnd b).length + 1) (multipartEnd b) = .finished := by
    obtain ⟨k, hk⟩ : ∃ k, (multipartEnd b).length = k + 1 := ⟨(multipartEnd b).length - 1, by simp [multipartEnd, crlf]⟩
    rw [hk, this, nextPart_break, nextPart_final h]
  rw [hn]

/-- What follows a part. -/
def partsRest (b : Bytes) (ps : List FormPart) : Bytes := writeParts b false ps ++ multipartEnd b

theorem partsRest_eq (b : Bytes) (ps : List FormPart) : ∃ t, afterBoundary t = true ∧ partsRest b ps = crlf ++ dashBoundary b ++ t := by
  cases ps with
  | nil => exact ⟨b! "--" ++ crlf, rfl, by simp [partsRest, writeParts, multipartEnd]⟩
  | cons p ps => exact ⟨crlf ++ (p.header ++ (p.content ++ partsRest b ps)), rfl, by simp [partsRest, writeParts]⟩

theorem readParts_step {b : Bytes} (h : Spec.Boundary b) (p : FormPart) (ps : List FormPart) (first : Bool) (k : Nat) (h1 : p.name ≠ []) (h2 : p.file ≠ some []) :
    readParts b first (k + 1) (writeParts b first (p :: ps) ++ multipartEnd b) =
      (partContent b (p.content ++ partsRest b ps)).bind fun x => (readParts b false k x.2).map fun qs => ⟨(Spec.arrived p).name, (Spec.arrived p).file, x.1⟩ :: qs := by
  have e : writeParts b first (p :: ps) ++ multipartEnd b =
      (if first then [] else crlf) ++ (dashBoundary b ++ (crlf ++ (p.header ++ (p.content ++ partsRest b ps)))) := by
    simp [writeParts, partsRest]
  rw [e, readParts]
  have hnext : ∀ m, nextPart b first false (m + 2) ((if first then [] else crlf) ++ (dashBoundary b ++ (crlf ++ (p.header ++ (p.content ++ partsRest b ps))))) =
      .part (p.header ++ (p.content ++ partsRest b ps)) := by
    intro m
    cases first with
    | true => exact nextPart_delimiter h true false (m + 1) _
    | false =>
      show nextPart b false false (m + 2) (crlf ++ _) = _
      rw [nextPart_break, nextPart_delimiter h]
  obtain ⟨m, hm⟩ : ∃ m, ((if first then [] else crlf) ++ (dashBoundary b ++ (crlf ++ (p.header ++ (p.content ++ partsRest b ps))))).length + 1 = m + 2 :=
    ⟨_, by
      simp only [List.length_append, dashBoundary, crlf, List.length_cons, List.length_nil]
      have : ∀ x : Nat, x + (0 + 1 + 1 + b.length + (0 + 1 + 1 + (p.header.length + (p.content.length + (partsRest b ps).length)))) + 1 =
        (x + (1 + b.length + (0 + 1 + 1 + (p.header.length + (p.content.length + (partsRest b ps).length))))) + 2 := by omega
      exact this _⟩
  rw [hm, hnext m]
  simp only
  obtain ⟨m', hm'⟩ : ∃ m', (p.header ++ (p.content ++ partsRest b ps)).length + 1 = m' + 3 :=
    ⟨(p.header ++ (p.content ++ partsRest b ps)).length - 2, by
      have : 2 ≤ p.header.length := by
        unfold FormPart.header
        simp only [List.length_append, crlf, List.length_cons, List.length_nil]
        omega
      simp only [List.length_append]
      omega⟩
  rw [hm', mime_header]
  simp only
  cases partContent b (p.content ++ partsRest b ps) with
  | none => rfl
  | some x =>
    simp only [Option.bind_some]
    rw [names_of p h1 h2]

theorem readParts_write {b : Bytes} (h : Spec.Boundary b) : ∀ (ps : List FormPart) (first : Bool) (n : Nat), ps.length < n →
    (∀ p ∈ ps, p.name ≠ [] ∧ p.file ≠ some []) →
    (readParts b first n (writeParts b first ps ++ multipartEnd b) = some (ps.map Spec.arrived) ↔ ∀ p ∈ ps, Spec.Clear b p.content)
  | [], first, n, hn, _ => by
    obtain ⟨k, rfl⟩ : ∃ k, n = k + 1 := ⟨n - 1, by simp at hn; omega⟩
    rw [writeParts, List.nil_append, readParts_end h]
    exact ⟨fun _ p hp => absurd hp List.not_mem_nil, fun _ => rfl⟩
  | p :: ps, first, n, hn, hp => by
    obtain ⟨k, rfl⟩ : ∃ k, n = k + 1 := ⟨n - 1, by simp at hn; omega⟩
    obtain ⟨h1, h2⟩ := hp p (List.mem_cons_self ..)
    obtain ⟨t, ht, he⟩ := partsRest_eq b ps
    have ih := readParts_write h ps false k (by simp at hn; omega) (fun q hq => hp q (List.mem_cons_of_mem _ hq))
    rw [readParts_step h p ps first k h1 h2, he]
    by_cases hc : Spec.Clear b p.content
    · rw [partContent_clear h ht hc, Option.bind_some, ← he]
      rw [List.forall_mem_cons, ← ih]
      simp only [hc, true_and]
      show (readParts b false k (partsRest b ps)).map _ = _ ↔ readParts b false k (partsRest b ps) = _
      cases readParts b false k (partsRest b ps) with
      | none => simp
      | some qs =>
        simp only [Option.map_some, Option.some.injEq, List.map_cons, List.cons.injEq]
        exact ⟨fun h => h.2, fun h => ⟨rfl, h⟩⟩
    · obtain ⟨x, hx, hne⟩ := partContent_cut hc t
      rw [hx, Option.bind_some]
      constructor
      · intro h'
        exfalso
        cases hr : readParts b false k x.2 with
        | none => rw [hr] at h'; cases h'
        | some qs =>
          rw [hr] at h'
          simp only [Option.map_some, Option.some.injEq, List.map_cons, List.cons.injEq] at h'
          have h3 := congrArg FormPart.content h'.1
          exact hne h3
      · intro h'
        exact absurd (h' p (List.mem_cons_self ..)) hc

theorem takeWhile_every {q : UInt8 → Bool} : ∀ {l : Bytes}, (∀ c ∈ l, q c = true) → l.takeWhile q = l
  | [], _ => rfl
  | c :: l, h => by rw [List.takeWhile_cons, h c (List.mem_cons_self ..), takeWhile_every fun d hd => h d (List.mem_cons_of_mem _ hd)]; rfl

theorem dropWhile_every {q : UInt8 → Bool} : ∀ {l : Bytes}, (∀ c ∈ l, q c = true) → l.dropWhile q = []
  | [], _ => rfl
  | c :: l, h => by rw [List.dropWhile_cons, h c (List.mem_cons_self ..), dropWhile_every fun d hd => h d (List.mem_cons_of_mem _ hd)]; rfl

theorem media_boundary {b : Bytes} (h : Spec.Boundary b) :
    parseMediaType (b! "multipart/form-data; boundary=" ++ b) = some (b! "multipart/form-data", [(b! "boundary", b)]) := by
  have h1 : b.takeWhile isTokenChar = b := takeWhile_every fun c hc => (boundary_not h hc).2.2
  have h2 : b.dropWhile isTokenChar = [] := dropWhile_every fun c hc => (boundary_not h hc).2.2
  obtain ⟨c, r, hb⟩ : ∃ c r, b = c :: r := by
    cases hb : b with
    | nil => exact absurd hb h.1
    | cons c r => exact ⟨c, r, rfl⟩
  have hc := boundary_not h (c := c) (by rw [hb]; exact List.mem_cons_self ..)
  have h3 : isBlank c = false ∧ c ≠ 34 := by
    have h1 : ∀ n : Fin 256, (fun c : UInt8 => (48 ≤ c ∧ c ≤ 57) ∨ (97 ≤ c ∧ c ≤ 122) → isBlank c = false ∧ c ≠ 34) ⟨⟨n⟩⟩ := by decide +kernel
    exact h1 c.toFin (h.2 c (by rw [hb]; exact List.mem_cons_self ..))
  have hd : b.dropWhile isBlank = b := by rw [hb, List.dropWhile_cons, h3.1]; rfl
  have hcons : consumeParam (b! "; boundary=" ++ b) = some (b! "boundary", b, []) := by
    have : consumeParam (b! "; boundary=" ++ b) = match b.dropWhile isBlank with
        | 34 :: r => (unquote r).map fun x => (toLowerAscii (b! "boundary"), x.1, x.2)
        | r => if r.takeWhile isTokenChar = [] then none else some (toLowerAscii (b! "boundary"), r.takeWhile isTokenChar, r.dropWhile isTokenChar) := rfl
    rw [this, hd]
    split
    · rename_i r' e
      exact absurd (List.cons.inj hb).1.symm h3.2
    · rw [h1, h2, if_neg h.1]
      rfl
  have h4 : (b! "multipart/form-data; boundary=" ++ b).dropWhile (· != 59) = b! "; boundary=" ++ b := rfl
  have h5 : (b! "multipart/form-data; boundary=" ++ b).takeWhile (· != 59) = b! "multipart/form-data" := rfl
  unfold parseMediaType
  rw [h4, h5]
  obtain ⟨k, hk⟩ : ∃ k, (b! "multipart/form-data; boundary=" ++ b).length + 1 = k + 2 := ⟨29 + b.length, by simp; omega⟩
  rw [hk, mediaParams, if_neg (by intro h; cases h), hcons]
  rfl

theorem writeParts_length (b : Bytes) : ∀ (first : Bool) (ps : List FormPart), ps.length ≤ (writeParts b first ps).length
  | _, [] => Nat.le_refl _
  | first, p :: ps => by
    have := writeParts_length b false ps
    simp only [writeParts, List.length_append, List.length_cons, dashBoundary, crlf]
    omega

end Metro2
