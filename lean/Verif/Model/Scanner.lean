import Verif.Model.File

/-! The split function of the streaming reader and the part of `bufio.Scanner` that drives it. -/

namespace Metro2

/-! ### scanRecord -/

/-- Result of a `bufio.SplitFunc`: `(0, nil, nil)`, an error, or a token. -/
inductive Split where
  | more
  | fail
  | token (advance : Nat) (tok : Bytes)
deriving DecidableEq, Repr

/-- `getStripedLength`, /repo/pkg/file/file.go:238-249. -/
def stripedLength (data : Bytes) : Nat :=
  data.foldl (fun n b => if b = 13 then n else if b = 10 then n else n + 1) 0

/-- The loop of `getStripedData`, /repo/pkg/file/file.go:251-265: `n` further values of `i`. -/
def stripedDataLoop (data : Bytes) (size : Nat) : Nat → Nat → Option (Nat × Bytes)
  | 0, _ => none
  | n + 1, i =>
    let buffer := (data.take i).filter (fun b => b != 13 && b != 10)
    if buffer.length = size then some (i, buffer) else stripedDataLoop data size n (i + 1)

/-- `getStripedData`, /repo/pkg/file/file.go:251-265; `none` is `io.ErrNoProgress`. -/
def stripedData (data : Bytes) (size : Nat) : Option (Nat × Bytes) :=
  stripedDataLoop data size (data.length + 1 - size) size

/-- The size of the next record, /repo/pkg/file/file.go:279-292; `none` is `io.ErrNoProgress`. -/
def scanSize (bdw : Bytes) : Option Nat :=
  match parseIntBits 32 bdw with
  | .ok size => if size < 426 then none else some size.toNat
  | .error _ =>
    let size := beVal (bdw.take 2)
    if size < 366 then none else some size

/-- `scanRecord`, /repo/pkg/file/file.go:237-304. The error of `getStripedData(4)` is ignored there; it cannot occur
because there are four bytes (lemma `stripedData_eq`), so `bdw` has four bytes and `Uint16` does not panic. -/
def scanRecord (data : Bytes) (atEOF : Bool) : Split :=
  let length := stripedLength data
  if atEOF ∧ length = 0 then .more
  else if length < 4 ∧ atEOF then .fail
  else if length < 4 then .more
  else
    match stripedData data 4 with
    | none => .fail
    | some (_, bdw) =>
      match scanSize bdw with
      | none => .fail
      | some size =>
        if size ≤ length then
          match stripedData data size with
          | none => .fail
          | some (i, tok) => .token i tok
        else if atEOF then .fail
        else .more

/-! ### bufio.Scanner (Go standard library; trusted base) -/

/-- Behaviour of an `io.Reader`: the `k`-th call of `Read` delivers at most `wish k` bytes (none at all is allowed);
`eof k` tells if the call returns the error (EOF or any other) together with the last bytes. -/
structure Plan where
  wish : Nat → Nat
  eof : Nat → Bool

/-- State of a `bufio.Scanner`: `window` is `buf[start:end]`, `cap` is `len(buf)`, `err` tells that `s.err` is not nil,
`rest` is what the reader will still deliver before its first error (EOF or any other), `calls` the number of calls of `Read`. -/
structure Scanner where
  start : Nat
  window : Bytes
  cap : Nat
  err : Bool
  rest : Bytes
  calls : Nat
deriving DecidableEq

/-- `bufio.NewScanner`. -/
def newScanner (data : Bytes) : Scanner := ⟨0, [], 0, false, data, 0⟩

/-- One call of `Read` with a buffer of `free` bytes. -/
def Scanner.read (p : Plan) (s : Scanner) (free : Nat) : Scanner × Nat :=
  let n := min (p.wish s.calls) (min free s.rest.length)
  ({ s with
      window := s.window ++ s.rest.take n
      rest := s.rest.drop n
      err := s.rest.length = n && p.eof s.calls
      calls := s.calls + 1 }, n)

/-- The read loop of `Scan`: at most `maxConsecutiveEmptyReads + 1` reads, `n` of them left. -/
def Scanner.fill (p : Plan) : Nat → Scanner → Scanner
  | 0, s => { s with err := true }
  | n + 1, s =>
    let r := s.read p (s.cap - (s.start + s.window.length))
    if r.1.err then r.1
    else if 0 < r.2 then r.1
    else Scanner.fill p n r.1

/-- `bufio.MaxScanTokenSize`. -/
def maxTokenSize : Nat := 65536

/-- The initial size of the buffer (`startBufSize`). -/
def startBufSize : Nat := 4096

/-- Shift of the window to the beginning of the buffer. -/
def Scanner.shift (s : Scanner) : Scanner :=
  if 0 < s.start ∧ (s.start + s.window.length = s.cap ∨ s.cap / 2 < s.start) then { s with start := 0 } else s

/-- Growth of a full buffer; `none` is `ErrTooLong`. -/
def Scanner.grow (s : Scanner) : Option Scanner :=
  if s.start + s.window.length = s.cap then
    if maxTokenSize ≤ s.cap then none
    else
      let newSize := if s.cap * 2 = 0 then startBufSize else s.cap * 2
      some { s with start := 0, cap := min newSize maxTokenSize }
  else some s

/-- What the split function does in one iteration of `Scan`: it is only asked if there are data or an error. -/
def Scanner.split (s : Scanner) : Split :=
  if s.window ≠ [] ∨ s.err then scanRecord s.window s.err else .more

theorem Scanner.fill_lt (p : Plan) (n : Nat) (s : Scanner) (h : s.err = false) :
    ((s.fill p n).err = true ∧ (s.fill p n).rest.length ≤ s.rest.length) ∨
      ((s.fill p n).err = false ∧ (s.fill p n).rest.length < s.rest.length) := by
  induction n generalizing s with
  | zero => left; exact ⟨rfl, Nat.le_refl _⟩
  | succ n ih =>
    unfold Scanner.fill
    simp only
    have hr : (s.read p (s.cap - (s.start + s.window.length))).1.rest.length =
        s.rest.length - (s.read p (s.cap - (s.start + s.window.length))).2 := by
      simp [Scanner.read]
    have hn : (s.read p (s.cap - (s.start + s.window.length))).2 ≤ s.rest.length := by
      simp only [Scanner.read]; omega
    generalize s.read p (s.cap - (s.start + s.window.length)) = r at hr hn
    by_cases h1 : r.1.err = true
    · rw [if_pos h1]; left; exact ⟨h1, by omega⟩
    · rw [if_neg h1]
      by_cases h2 : 0 < r.2
      · rw [if_pos h2]; right; exact ⟨by simpa using h1, by omega⟩
      · rw [if_neg h2]
        have h3 := ih r.1 (by simpa using h1)
        rw [show s.rest.length = r.1.rest.length from by omega]
        exact h3

theorem Scanner.shift_keeps (s : Scanner) : s.shift.err = s.err ∧ s.shift.rest = s.rest := by
  unfold Scanner.shift
  split <;> exact ⟨rfl, rfl⟩

theorem Scanner.grow_keeps {s t : Scanner} (h : s.grow = some t) : t.err = s.err ∧ t.rest = s.rest := by
  unfold Scanner.grow at h
  split at h
  · split at h
    · simp at h
    · cases h; exact ⟨rfl, rfl⟩
  · cases h; exact ⟨rfl, rfl⟩

/-- `Scan`, with the token that `Bytes` then returns. The token of `scanRecord` is a fresh buffer and
its `advance` is positive and within the window, so the checks on these (`Scanner.advance`, `empties`) never trigger and are left out. -/
def Scanner.scan (p : Plan) (s : Scanner) : Scanner × Option Bytes :=
  match s.split with
  | .fail => ({ s with err := true }, none)
  | .token advance tok =>
    ({ s with start := s.start + advance, window := s.window.drop advance }, some tok)
  | .more =>
    if he : s.err then ({ s with start := 0, window := [] }, none)
    else
      match hg : s.shift.grow with
      | none => ({ s.shift with err := true }, none)
      | some t => Scanner.scan p (t.fill p 101)
termination_by 2 * s.rest.length + (if s.err then 0 else 1)
decreasing_by
  have h1 := s.shift_keeps
  have h2 := Scanner.grow_keeps hg
  have h3 := Scanner.fill_lt p 101 t (by rw [h2.1, h1.1]; simpa using he)
  have h4 : t.rest = s.rest := by rw [h2.2, h1.2]
  rw [h4] at h3
  have h5 : s.err = false := by simpa using he
  rw [h5]
  rcases h3 with ⟨h6, h7⟩ | ⟨h6, h7⟩ <;> rw [h6] <;> simp <;> omega

theorem stripedDataLoop_ge {data : Bytes} {size : Nat} (n i : Nat) {k : Nat} {t : Bytes}
    (h : stripedDataLoop data size n i = some (k, t)) : i ≤ k := by
  induction n generalizing i with
  | zero => simp [stripedDataLoop] at h
  | succ n ih =>
    rw [stripedDataLoop] at h
    split at h
    · simp only [Option.some.injEq, Prod.mk.injEq] at h; omega
    · have := ih _ h; omega

theorem scanRecord_pos {data : Bytes} {eof : Bool} {i : Nat} {tok : Bytes} (h : scanRecord data eof = .token i tok) :
    0 < i ∧ data ≠ [] := by
  unfold scanRecord at h
  simp only at h
  split at h
  · simp at h
  · split at h
    · simp at h
    · split at h
      · simp at h
      · next h4 =>
        have hd : data ≠ [] := by
          rintro rfl
          exact h4 (by decide)
        split at h
        · simp at h
        · split at h
          · simp at h
          · next size hs =>
            have hsz : 0 < size := by
              unfold scanSize at hs
              split at hs
              · split at hs
                · simp at hs
                · cases hs; omega
              · simp only at hs
                split at hs
                · simp at hs
                · cases hs; omega
            split at h
            · split at h
              · simp at h
              · next hx =>
                simp only [Split.token.injEq] at h
                have := stripedDataLoop_ge _ _ hx
                exact ⟨by omega, hd⟩
            · split at h <;> simp at h

theorem Scanner.fill_size (p : Plan) (n : Nat) (s : Scanner) :
    (s.fill p n).window.length + (s.fill p n).rest.length = s.window.length + s.rest.length := by
  induction n generalizing s with
  | zero => rfl
  | succ n ih =>
    unfold Scanner.fill
    simp only
    have hr : (s.read p (s.cap - (s.start + s.window.length))).1.window.length +
        (s.read p (s.cap - (s.start + s.window.length))).1.rest.length = s.window.length + s.rest.length := by
      simp only [Scanner.read, List.length_append, List.length_take, List.length_drop]
      omega
    generalize s.read p (s.cap - (s.start + s.window.length)) = r at hr
    split
    · exact hr
    · split
      · exact hr
      · rw [ih]; exact hr

/-- A successful `Scan` consumes data. -/
theorem Scanner.scan_lt (p : Plan) (s : Scanner) {t : Scanner} {tok : Bytes} (h : s.scan p = (t, some tok)) :
    t.window.length + t.rest.length < s.window.length + s.rest.length := by
  induction s using Scanner.scan.induct p generalizing t tok with
  | case1 s hs => rw [Scanner.scan, hs] at h; simp at h
  | case2 s advance tk hs =>
    rw [Scanner.scan, hs] at h
    simp only [Prod.mk.injEq, Option.some.injEq] at h
    obtain ⟨rfl, rfl⟩ := h
    have : scanRecord s.window s.err = .token advance tk := by
      unfold Scanner.split at hs
      split at hs
      · exact hs
      · simp at hs
    obtain ⟨h1, h2⟩ := scanRecord_pos this
    have := List.length_pos_iff.2 h2
    simp only [List.length_drop]
    omega
  | case3 s hs he => rw [Scanner.scan, hs] at h; simp [he] at h
  | case4 s hs he hg =>
    rw [Scanner.scan, hs] at h
    simp only at h
    rw [dif_neg he] at h
    split at h
    · simp at h
    · next hg' => rw [hg] at hg'; simp at hg'
  | case5 s hs he u hg ih =>
    rw [Scanner.scan, hs] at h
    simp only at h
    rw [dif_neg he] at h
    split at h
    · simp at h
    · next u' hg' =>
      rw [hg] at hg'
      cases hg'
      have h1 := ih h
      rw [Scanner.fill_size] at h1
      have h2 : u.rest = s.rest := (Scanner.grow_keeps hg).2.trans s.shift_keeps.2
      have h3 : u.window = s.window := by
        unfold Scanner.grow at hg
        have : s.shift.window = s.window := by unfold Scanner.shift; split <;> rfl
        split at hg
        · split at hg
          · simp at hg
          · cases hg; exact this
        · cases hg; exact this
      rw [h2, h3] at h1
      exact h1

/-- All tokens: `for scanner.Scan() { … scanner.Bytes() … }`. -/
def Scanner.all (p : Plan) (s : Scanner) : List Bytes :=
  match h : s.scan p with
  | (_, none) => []
  | (t, some tok) => tok :: Scanner.all p t
termination_by s.window.length + s.rest.length
decreasing_by exact Scanner.scan_lt p s h

end Metro2
