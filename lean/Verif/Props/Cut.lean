import Verif.Props.Assemble
import Verif.Props.JsonText
import Verif.Props.Leading
import Verif.Props.Damage

/-!
C129: an input that breaks off is refused, or it is read as the whole input is.
-/

namespace Metro2

open Spec Samples

theorem pieces_append {a : Bytes} {qs : List Bytes} (h : Pieces a qs) (b : Bytes) : ∃ rs, Pieces (a ++ b) (qs ++ rs) := by
  induction h with
  | @nil raw _ => exact pieces_exist (raw ++ b)
  | @cons x y ps hx _ ih =>
    obtain ⟨rs, hrs⟩ := ih
    exact ⟨rs, by rw [List.append_assoc]; exact .cons hx hrs⟩

theorem pieces_flatten {raw : Bytes} {ps : List Bytes} (h : Pieces raw ps) : ∃ rest, raw = ps.flatten ++ rest := by
  induction h with
  | @nil raw _ => exact ⟨raw, rfl⟩
  | @cons x y ps _ _ ih => obtain ⟨rest, rfl⟩ := ih; exact ⟨rest, by simp⟩

theorem recordsOf_append (qs rs : List Bytes) : ∃ more, recordsOf (qs ++ rs) = recordsOf qs ++ more := by
  unfold recordsOf
  induction qs with
  | nil => exact ⟨_, rfl⟩
  | cons a qs ih =>
    obtain ⟨more, hm⟩ := ih
    by_cases h : a.length ≤ bufferSize
    · refine ⟨more, ?_⟩
      rw [List.cons_append, List.takeWhile_cons_of_pos (by simpa using h), List.takeWhile_cons_of_pos (by simpa using h), List.map_cons, List.map_cons, hm]
      rfl
    · refine ⟨[], ?_⟩
      rw [List.cons_append, List.takeWhile_cons_of_neg (by simpa using h), List.takeWhile_cons_of_neg (by simpa using h)]
      rfl

/-- C129. What was read is what the whole input holds: whatever follows the text of a file, it is read as that file. -/
theorem C129_same (p p' : Plan) (hp : p.Progress) (hp' : p'.Progress) (a b : Bytes) (f : File) (h : readFile p a = .ok f) :
    readFile p' (a ++ b) = .ok f := by
  obtain ⟨qs, hqs, isVar, first, datas, last, rest, n, m, e, h1, h2, h3, h4, h5⟩ := (C102_reader p hp a f).1 h
  obtain ⟨rs, hrs⟩ := pieces_append hqs b
  obtain ⟨more, hm⟩ := recordsOf_append qs rs
  refine (C102_reader p' hp' _ f).2 ⟨_, hrs, isVar, first, datas, last, rest ++ more, n, m, ?_, h1, h2, h3, h4, h5⟩
  rw [hm, e]
  simp

theorem takeWhile_of_length {α : Type} {q : α → Bool} : ∀ {l : List α} {k : Nat}, k ≤ (l.takeWhile q).length → (l.take k).takeWhile q = l.take k
  | [], k, _ => by simp
  | x :: l, 0, _ => by simp
  | x :: l, k + 1, h => by
    by_cases hx : q x
    · rw [List.takeWhile_cons_of_pos hx, List.length_cons] at h
      rw [List.take_succ_cons, List.takeWhile_cons_of_pos hx, takeWhile_of_length (by omega)]
    · rw [List.takeWhile_cons_of_neg hx] at h
      simp at h

/-- The first `k` pieces are those of their own text. -/
theorem pieces_take {raw : Bytes} {ps : List Bytes} (h : Pieces raw ps) : ∀ k, Pieces (ps.take k).flatten (ps.take k) := by
  have none : Pieces ([] : Bytes) [] := .nil fun a b hab ha => by
    have := ha.1
    rw [(List.append_eq_nil_iff.1 hab.symm).1] at this
    simp [withoutBreaks] at this
  induction h with
  | nil _ => intro k; simpa using none
  | @cons x y ps hx _ ih =>
    intro k
    cases k with
    | zero => simpa using none
    | succ k => rw [List.take_succ_cons, List.flatten_cons]; exact .cons hx (ih k)

theorem read_error {p : Plan} {raw : Bytes} (h : ∀ f, readFile p raw ≠ .ok f) : ∃ e, readFile p raw = .error e := by
  cases hr : readFile p raw with
  | error e => exact ⟨e, rfl⟩
  | ok f => exact absurd hr (h f)

/-- C129. An input that breaks off: it is read as the whole one if the header, the data records and the trailer are complete, and refused if not. -/
theorem C129_cut (p p' : Plan) (hp : p.Progress) (hp' : p'.Progress) (raw : Bytes) (f : File) (h : readFile p raw = .ok f) (ps : List Bytes)
    (hps : Pieces raw ps) (n : Nat) :
    ((ps.take (f.bases.length + 2)).flatten.length ≤ n → readFile p' (raw.take n) = .ok f) ∧
    (n < (ps.take (f.bases.length + 2)).flatten.length → ∃ e, readFile p' (raw.take n) = .error e) := by
  obtain ⟨qs, hqs, isVar, first, datas, last, rest, k, m, e, h1, h2, h3, h4, h5⟩ := (C102_reader p hp raw f).1 h
  cases pieces_unique hqs ps hps
  have hd := h3.length_eq
  have hall := pieces_flatten hps
  constructor
  · intro hn
    have hp1 := pieces_take hps (f.bases.length + 2)
    have hlen : f.bases.length + 2 ≤ (ps.takeWhile fun a => decide (a.length ≤ bufferSize)).length := by
      have := congrArg List.length e
      rw [recordsOf, List.length_map] at this
      rw [this]
      simp
      omega
    have hrec : recordsOf (ps.take (f.bases.length + 2)) = first :: datas ++ [last] := by
      have e1 : recordsOf (ps.take (f.bases.length + 2)) = (recordsOf ps).take (f.bases.length + 2) := by
        unfold recordsOf
        rw [takeWhile_of_length hlen, ← List.map_take]
        congr 1
        obtain ⟨t, ht⟩ := List.takeWhile_prefix (l := ps) (p := fun a => decide (a.length ≤ bufferSize))
        conv => lhs; rw [← ht]
        rw [List.take_append_of_le_length hlen]
      rw [e1, e, ← hd]
      simp [List.take_append]
    have hshort : readFile p (ps.take (f.bases.length + 2)).flatten = .ok f :=
      (C102_reader p hp _ f).2 ⟨_, hp1, isVar, first, datas, last, [], k, m, hrec, h1, h2, h3, h4, h5⟩
    obtain ⟨rest', hr⟩ := hall
    have e2 : raw = (ps.take (f.bases.length + 2)).flatten ++ ((ps.drop (f.bases.length + 2)).flatten ++ rest') := by
      rw [← List.append_assoc, ← List.flatten_append, List.take_append_drop]
      exact hr
    rw [e2, List.take_append, List.take_of_length_le hn]
    exact C129_same p p' hp hp' _ _ f hshort
  · intro hn
    refine read_error fun g hg => ?_
    obtain ⟨rs, hrs, isVar', first', datas', last', rest', k', m', e', g1, g2, g3, g4, g5⟩ := (C102_reader p' hp' _ g).1 hg
    have hwhole := C129_same p' p hp' hp _ (raw.drop n) g hg
    rw [List.take_append_drop, h] at hwhole
    cases hwhole
    obtain ⟨us, hus⟩ := pieces_append hrs (raw.drop n)
    rw [List.take_append_drop] at hus
    have heq := pieces_unique hps _ hus
    obtain ⟨tail, ht⟩ := pieces_flatten hrs
    have hcount : f.bases.length + 2 ≤ rs.length := by
      have := congrArg List.length e'
      rw [recordsOf, List.length_map] at this
      have h6 := (List.takeWhile_sublist (l := rs) fun a => decide (a.length ≤ bufferSize)).length_le
      have h7 := g3.length_eq
      simp at this
      omega
    rw [heq, List.take_append_of_le_length hcount] at hn
    have h8 : (rs.take (f.bases.length + 2)).flatten.length ≤ rs.flatten.length := by
      conv => rhs; rw [← List.take_append_drop (f.bases.length + 2) rs, List.flatten_append, List.length_append]
      omega
    have h9 := congrArg List.length ht
    rw [List.length_append, List.length_take] at h9
    omega

theorem joinRecords_last (nl : Bool) (t : Bytes) : ∀ ts : List Bytes, ∃ x, joinRecords nl (ts ++ [t]) = x ++ t
  | [] => ⟨[], rfl⟩
  | [u] => ⟨u ++ (if nl then ['\n'.toNat.toUInt8] else []), rfl⟩
  | u :: v :: ts => by
    obtain ⟨x, hx⟩ := joinRecords_last nl t (v :: ts)
    refine ⟨u ++ (if nl then ['\n'.toNat.toUInt8] else []) ++ x, ?_⟩
    rw [List.append_assoc, ← hx]
    rfl

theorem earlyBrace_prefix {a b : Bytes} (h : EarlyBrace a) : EarlyBrace (a ++ b) := by
  unfold EarlyBrace at *
  rw [List.take_append]
  exact List.mem_append_left _ h

/-- C129. The text of a well-formed file that breaks off anywhere, if only the last byte is missing, is refused. -/
theorem C129_written (enc : Enc) (isVar : Bool) (f : File) (h : GoodFile enc isVar f) (hb : enc = .packed → ∀ t ∈ recordTexts f, NoBreaks t)
    (nl : Bool) (hj : ¬ EarlyBrace (f.string nl)) (json : Bytes → Except Err File) (p : Plan) (hp : p.Progress) (broken : Bool) (n : Nat)
    (hn : n < (f.string nl).length) : ∃ e, newFileFromReader json p ((f.string nl).take n) broken = .error e := by
  cases hr : newFileFromReader json p ((f.string nl).take n) broken with
  | error e => exact ⟨e, rfl⟩
  | ok g =>
    exfalso
    obtain ⟨-, -, hk | ⟨-, rs, hrs, isVar', first, datas, last, rest, k, m, e, h1, h2, h3, h4, h5⟩⟩ := (C102_accepted json p hp _ _ _).1 hr
    · have := earlyBrace_prefix (b := (f.string nl).drop n) hk.1
      rw [List.take_append_drop] at this
      exact hj this
    · have htexts := good_texts h hb
      have hshort := (C102_reader p hp _ g).2 ⟨rs, hrs, isVar', first, datas, last, rest, k, m, e, h1, h2, h3, h4, h5⟩
      have hsame := C129_same p p hp hp _ ((f.string nl).drop n) g hshort
      have hfull := readFile_text h (fun t ht => (htexts t ht).noBreaks) nl [] hp
      rw [List.append_nil] at hfull
      rw [List.take_append_drop, hfull] at hsame
      cases hsame
      obtain ⟨ps, hps, hrec, hflat⟩ := divided_join nl (t := f.header.string) (ts := f.bases.map Record.string ++ [f.trailer.string]) htexts
      rw [show joinRecords nl (f.header.string :: (f.bases.map Record.string ++ [f.trailer.string])) = f.string nl from (File.string_eq f nl).symm]
        at hps hflat
      obtain ⟨us, hus⟩ := pieces_append hrs ((f.string nl).drop n)
      rw [List.take_append_drop] at hus
      cases pieces_unique hps _ hus
      obtain ⟨more, hm⟩ := recordsOf_append rs us
      rw [hrec] at hm
      have hlen := congrArg List.length hm
      have hl1 := congrArg List.length e
      have hl2 := h3.length_eq
      simp only [List.length_cons, List.length_append, List.length_map, List.length_nil, List.cons_append] at hlen hl1
      have hmore : more = [] := List.eq_nil_of_length_eq_zero (by omega)
      rw [hmore, List.append_nil] at hm
      obtain ⟨tail, htail⟩ := pieces_flatten hrs
      have hle : (recordsOf rs).flatten.length ≤ (withoutBreaks ((f.string nl).take n)).length := by
        rw [htail, withoutBreaks_append]
        have : ∀ l : List Bytes, (recordsOf l).flatten.length ≤ (withoutBreaks l.flatten).length := by
          intro l
          unfold recordsOf
          induction l with
          | nil => simp
          | cons a l ih =>
            rw [List.flatten_cons, withoutBreaks_append, List.length_append]
            by_cases ha : a.length ≤ bufferSize
            · rw [List.takeWhile_cons_of_pos (by simpa using ha), List.map_cons, List.flatten_cons, List.length_append]
              omega
            · rw [List.takeWhile_cons_of_neg (by simpa using ha)]
              simp
        have := this rs
        rw [List.length_append]
        omega
      have hsum : (withoutBreaks (f.string nl)).length =
          (withoutBreaks ((f.string nl).take n)).length + (withoutBreaks ((f.string nl).drop n)).length := by
        conv => lhs; rw [← List.take_append_drop n (f.string nl), withoutBreaks_append, List.length_append]
      rw [hflat, hm] at hsum
      have hnil : withoutBreaks ((f.string nl).drop n) = [] := List.eq_nil_of_length_eq_zero (by omega)
      obtain ⟨x, hx⟩ := joinRecords_last nl f.trailer.string (f.header.string :: f.bases.map Record.string)
      rw [show joinRecords nl (f.header.string :: f.bases.map Record.string ++ [f.trailer.string]) = f.string nl from (File.string_eq f nl).symm] at hx
      have ht := htexts f.trailer.string (by simp [recordTexts])
      obtain ⟨y, c, hyc⟩ : ∃ y c, f.trailer.string = y ++ [c] :=
        ⟨_, _, (List.dropLast_concat_getLast (l := f.trailer.string) (by intro h0; have := ht.four; rw [h0] at this; simp at this)).symm⟩
      have hc := ht.noBreaks c (by rw [hyc]; simp)
      have hmem : c ∈ withoutBreaks ((f.string nl).drop n) := by
        unfold withoutBreaks
        rw [List.mem_filter]
        refine ⟨?_, by simpa using hc⟩
        rw [hx, hyc, ← List.append_assoc, List.drop_append_of_le_length (by
          rw [hx, hyc] at hn; simp only [List.length_append, List.length_singleton] at hn ⊢; omega)]
        simp
      rw [hnil] at hmem
      cases hmem

/-! ### JSON -/

theorem header_in_stream {raw : Bytes} {f : File} (h : StreamOf raw f) : (72 : UInt8) ∈ raw := by
  obtain ⟨ps, hps, isVar, first, datas, last, rest, n, m, e, ht, -⟩ := h
  have hm : first ∈ recordsOf ps := by rw [e]; simp
  unfold recordsOf at hm
  obtain ⟨a, ha, rfl⟩ := List.mem_map.1 hm
  have h1 : (72 : UInt8) ∈ withoutBreaks a := by
    have hw := ht.word
    unfold HeaderAt at hw
    have : (72 : UInt8) ∈ ((withoutBreaks a).drop (if isVar then 8 else 4)).take 6 := by rw [hw]; simp
    exact List.mem_of_mem_drop (List.mem_of_mem_take this)
  obtain ⟨r, rfl⟩ := pieces_flatten hps
  exact List.mem_append_left _ (List.mem_flatten.2 ⟨a, (List.takeWhile_sublist _).subset ha, (List.mem_filter.1 h1).1⟩)

theorem values_end {w t r w' t' r' : Bytes} {j j' : Json} (hw : Space w) (hw' : Space w') (ht : JsonText deepest j t) (ht' : JsonText deepest j' t')
    (hj : j = .null ∨ ∃ kvs, j = .obj kvs) (hj' : j' = .null ∨ ∃ kvs, j' = .obj kvs) (e : w ++ (t ++ r) = w' ++ (t' ++ r')) : j = j' ∧ r = r' := by
  have nn : ∀ {j : Json}, (j = .null ∨ ∃ kvs, j = .obj kvs) → ∀ {r : Bytes} l, j = .num l → Stops r := by
    rintro j (rfl | ⟨kvs, rfl⟩) r l hl <;> cases hl
  have h1 := readValue_of ht ((w ++ (t ++ r)).length + 1) 0 w r hw (Nat.le_refl _) (nn hj) (by simp; omega)
  have h2 := readValue_of ht' ((w' ++ (t' ++ r')).length + 1) 0 w' r' hw' (Nat.le_refl _) (nn hj') (by simp; omega)
  rw [← e, h1] at h2
  simpa using h2

theorem readJson_append {env : JsonEnv} {visits : Nat → List (Bytes × Json) → List (Bytes × Json)} {a : Bytes} {f : File}
    (h : readJson env visits firstJson a = .ok f) (b : Bytes) : readJson env visits firstJson (a ++ b) = .ok f := by
  obtain ⟨j, w, t, r, rfl, hw, ht, hj⟩ := readJson_shape h
  have nn : ∀ {r : Bytes} l, j = .num l → Stops r := by
    rcases hj with rfl | ⟨kvs, rfl⟩ <;> (intro r l hl; cases hl)
  have e : w ++ (t ++ r) ++ b = w ++ (t ++ (r ++ b)) := by simp
  unfold readJson at h ⊢
  rw [e, firstJson_of hw ht nn]
  rw [firstJson_of hw ht nn] at h
  exact h

/-- C129. A JSON document that breaks off is refused if its value is not complete; what is missing behind it does not matter. -/
theorem C129_json (env : JsonEnv) (visits : Nat → List (Bytes × Json) → List (Bytes × Json)) (p p' : Plan) (hp' : p'.Progress) (w t r : Bytes) (f : File)
    (kvs : List (Bytes × Json)) (hw : Space w) (hl : w.length < 1024) (ht : JsonText deepest (.obj kvs) t)
    (h : newFileFromReader (readJson env visits firstJson) p (w ++ (t ++ r)) false = .ok f) (n : Nat) :
    (w.length + t.length ≤ n → newFileFromReader (readJson env visits firstJson) p' ((w ++ (t ++ r)).take n) false = .ok f) ∧
    (n < w.length + t.length → ∃ e, newFileFromReader (readJson env visits firstJson) p' ((w ++ (t ++ r)).take n) false = .error e) := by
  rw [newFile_json _ p (earlyBrace_obj hl ht)] at h
  constructor
  · intro hn
    rw [List.take_append, List.take_of_length_le (by omega), List.take_append, List.take_of_length_le (l := t) (by omega),
      newFile_json _ p' (earlyBrace_obj hl ht)]
    unfold readJson at h ⊢
    rw [firstJson_obj hw ht] at h ⊢
    exact h
  · intro hn
    cases hr : newFileFromReader (readJson env visits firstJson) p' ((w ++ (t ++ r)).take n) false with
    | error e => exact ⟨e, rfl⟩
    | ok g =>
      exfalso
      obtain ⟨-, -, hk | hk⟩ := (C102_accepted _ p' hp' _ _ _).1 hr
      · obtain ⟨j, w', t', r', e, hw', ht', hj⟩ := readJson_shape hk.2
        have e' : w ++ (t ++ r) = w' ++ (t' ++ (r' ++ (w ++ (t ++ r)).drop n)) := by
          conv => lhs; rw [← List.take_append_drop n (w ++ (t ++ r)), e]
          simp
        have := congrArg List.length (values_end hw hw' ht ht' (.inr ⟨kvs, rfl⟩) hj e').2
        simp only [List.length_append, List.length_drop] at this
        omega
      · have hin := header_in_stream hk.2
        by_cases hnw : n ≤ w.length
        · rw [List.take_append_of_le_length hnw] at hin
          rcases hw _ (List.mem_of_mem_take hin) with h | h | h | h <;> exact absurd h (by decide)
        · refine hk.1 ?_
          obtain ⟨s, rfl⟩ := obj_starts ht
          rw [List.take_append, List.take_of_length_le (by omega)]
          obtain ⟨m, hm⟩ : ∃ m, n - w.length = m + 1 := ⟨n - w.length - 1, by omega⟩
          rw [hm]
          show (123 : UInt8) ∈ _
          rw [List.take_append, List.take_of_length_le (by omega)]
          apply List.mem_append_right
          obtain ⟨i, hi⟩ : ∃ i, 1024 - w.length = i + 1 := ⟨1024 - w.length - 1, by omega⟩
          rw [hi]
          simp

/-- C129. A file that is written as JSON, in any layout, and breaks off is refused. -/
theorem C129_json_written (env : JsonEnv) (he : JsonEnvOk env) (visits : Nat → List (Bytes × Json) → List (Bytes × Json)) (hv : MapOrders visits)
    (enc : Enc) (f : File) (hf : JsonFile enc f) (hd : Detectable enc f) (p : Plan) (hp : p.Progress) (t : Bytes) (ht : JsonText deepest f.toJson t)
    (n : Nat) (hn : n < t.length) : ∃ e, newFileFromReader (readJson env visits firstJson) p (t.take n) false = .error e := by
  obtain ⟨kvs, hk⟩ := toJson_obj f
  have hr := file_text_read (w := []) (r := []) he hv hf hd p space_nil (by decide) ht
  have := (C129_json env visits p p hp [] t [] f kvs space_nil (by decide) (hk ▸ ht) hr n).2 (by simpa using hn)
  simpa using this

/-- A short record begins with a digit, a sign or a byte less than 4. -/
theorem short_piece {x : Bytes} (h : Piece x) (hl : x.length < 1024) {c : UInt8} {s : Bytes} (hc : withoutBreaks x = c :: s) :
    c.toNat < 4 ∨ c = 43 ∨ c = 45 ∨ (48 ≤ c.toNat ∧ c.toNat ≤ 57) := by
  obtain ⟨h1, h2, -⟩ := h
  have hle := withoutBreaks_length_le x
  rcases h2 with ⟨⟨ds, k, hne, ⟨hd, -⟩, hs⟩, -⟩ | ⟨-, hb, -⟩
  · rw [hc] at hs
    rcases hs with ⟨e, -⟩ | ⟨e, -⟩ | ⟨e, -⟩
    · have := hd c (by rw [← e]; simp)
      exact .inr (.inr (.inr this))
    · rw [List.take_succ_cons, List.cons.injEq] at e
      exact .inr (.inl e.1)
    · rw [List.take_succ_cons, List.cons.injEq] at e
      exact .inr (.inr (.inl e.1))
  · unfold BigEndian at hb
    rw [hc] at hb h1 hle
    cases s with
    | nil => simp at h1
    | cons d s =>
      simp only [List.take_succ_cons, List.take_zero, List.reverse_cons, List.reverse_nil, List.nil_append, List.map_cons, List.map_nil,
        List.cons_append, Nat.ofDigits_cons, Nat.ofDigits_nil] at hb
      simp only [List.length_cons] at hb hle
      left
      push_cast at hb
      omega

/-- C129. In whichever form the input is: a part of it from the beginning that is accepted is read as the whole of it is. -/
theorem C129_opened (env : JsonEnv) (visits : Nat → List (Bytes × Json) → List (Bytes × Json)) (p p' : Plan) (hp : p.Progress) (hp' : p'.Progress)
    (raw : Bytes) (f g : File) (h : newFileFromReader (readJson env visits firstJson) p raw false = .ok f) (n : Nat) (broken : Bool)
    (hg : newFileFromReader (readJson env visits firstJson) p' (raw.take n) broken = .ok g) : g = f := by
  obtain ⟨-, -, hf⟩ := (C102_accepted _ p hp _ _ _).1 h
  obtain ⟨-, -, hc⟩ := (C102_accepted _ p' hp' _ _ _).1 hg
  have hdrop := List.take_append_drop n raw
  rcases hc with ⟨hb, hc⟩ | ⟨hb, hc⟩
  · have hb' : EarlyBrace raw := by rw [← hdrop]; exact earlyBrace_prefix hb
    rcases hf with ⟨-, hf⟩ | ⟨hb2, -⟩
    · have := readJson_append hc (raw.drop n)
      rw [hdrop, hf] at this
      cases this
      rfl
    · exact absurd hb' hb2
  · rcases hf with ⟨hb2, hf⟩ | ⟨-, hf⟩
    · exfalso
      have hn : n < 1024 := by
        by_contra hn
        refine hb ?_
        unfold EarlyBrace at hb2 ⊢
        rwa [List.take_take, Nat.min_eq_left (by omega)]
      obtain ⟨ps, hps, isVar, first, datas, last, rest, k, m, e, -⟩ := hc
      generalize e1 : raw.take n = cut at hps
      cases hps with
      | nil _ => cases e
      | @cons x y ps hx _ =>
        have e0 : raw = x ++ (y ++ raw.drop n) := by
          rw [← List.append_assoc]
          rw [← e1, hdrop]
        have hlx : x.length < 1024 := by
          have := congrArg List.length e1
          simp only [List.length_append, List.length_take] at this
          omega
        obtain ⟨c, s, hcs⟩ : ∃ c s, withoutBreaks x = c :: s := by
          have := hx.1
          cases hq : withoutBreaks x with
          | nil => rw [hq] at this; simp at this
          | cons c s => exact ⟨c, s, rfl⟩
        have hshort := short_piece hx hlx hcs
        obtain ⟨j, w, t, r, e2, hw, ht, hj⟩ := readJson_shape hf
        have e3 := congrArg withoutBreaks (e0.symm.trans e2)
        rw [withoutBreaks_append, hcs, withoutBreaks_append, withoutBreaks_append, List.cons_append] at e3
        cases hq : withoutBreaks w with
        | cons c' s' =>
          rw [hq, List.cons_append, List.cons.injEq] at e3
          have hm : c' ∈ w := (List.mem_filter.1 (by rw [← withoutBreaks, hq]; simp)).1
          rw [← e3.1] at hm
          rcases hw c hm with rfl | rfl | rfl | rfl <;> exact absurd hshort (by decide)
        | nil =>
          rw [hq, List.nil_append] at e3
          rcases hj with rfl | ⟨kvs, rfl⟩
          · cases ht
            rw [withoutBreaks_append, show withoutBreaks "null".toUTF8.data.toList = 110 :: [117, 108, 108] by decide +kernel, List.cons_append, List.cons.injEq] at e3
            rw [e3.1] at hshort
            exact absurd hshort (by decide)
          · obtain ⟨s', rfl⟩ := obj_starts ht
            rw [withoutBreaks_append, show withoutBreaks (123 :: (s' ++ [125])) = 123 :: withoutBreaks (s' ++ [125]) from rfl, List.cons_append, List.cons.injEq] at e3
            rw [e3.1] at hshort
            exact absurd hshort (by decide)
    · have h1 := C129_same p' p hp' hp _ (raw.drop n) g ((C102_reader p' hp' _ _).2 hc)
      rw [hdrop, (C102_reader p hp _ _).2 hf] at h1
      cases h1
      rfl

/-! ### File.Parse -/

theorem base_long {enc : Enc} {u : Bytes} {isVar : Bool} {r : Record} {n : Int} (h : (newBase enc).parse u isVar = (r, .ok n)) : 366 ≤ u.length := by
  by_contra hl
  cases enc <;> simp only [newBase, Record.parse, Prod.mk.injEq] at h
  · rw [parseBaseCharacter, if_pos (by omega)] at h; cases h.2
  · rw [parseBasePacked, if_pos (by omega)] at h; cases h.2

theorem recordLength_long (enc : Enc) : 366 ≤ enc.recordLength := by cases enc <;> decide

theorem header_long {enc : Enc} {fs fs' : Fields} {u : Bytes} {isVar : Bool} {n : Int} (h : parseHeader enc fs u isVar = (fs', .ok n)) : 366 ≤ u.length := by
  by_contra hl
  have := recordLength_long enc
  rw [parseHeader, if_pos (by omega)] at h
  cases h

theorem trailer_long {enc : Enc} {fs fs' : Fields} {u : Bytes} {isVar : Bool} {n : Int} (h : parseTrailer enc fs u isVar = (fs', .ok n)) : 366 ≤ u.length := by
  by_contra hl
  have := recordLength_long enc
  rw [parseTrailer, if_pos (by omega)] at h
  cases h

/-- Where the data records end that are read from lines of which the last one is cut off. -/
theorem dataFrom_cut {enc : Enc} {isVar : Bool} {b : Int} {u v : Bytes} (hu : Line enc (u ++ v)) (hv : v ≠ []) :
    ∀ (rs : List Record) (ws : List Bytes) (front : Bytes), (∀ l ∈ ws, Line enc l) →
      DataFrom enc isVar (front ++ (ws.flatten ++ u)) front.length rs b → b < (front ++ (ws.flatten ++ u)).length →
      (∃ datas last rest, ws = datas ++ last :: rest ∧ b = (front ++ datas.flatten).length) ∨ b = (front ++ ws.flatten).length := by
  intro rs
  induction rs with
  | nil =>
    intro ws front _ h _
    cases h
    cases ws with
    | nil => right; simp
    | cons last rest => exact .inl ⟨[], last, rest, rfl, by simp⟩
  | cons r rs ih =>
    intro ws front hl h hb
    cases h with
    | @cons _ n _ _ _ h0 h1 hr h =>
      rw [Int.toNat_natCast, List.drop_left] at hr
      obtain ⟨fs, g, rfl⟩ := newBase_parse_shape hr
      cases ws with
      | nil =>
        exfalso
        simp only [List.flatten_nil, List.nil_append] at hr h hb
        have h366 := base_long hr
        obtain ⟨rfl, -⟩ := base_size hu.1 hu.2 (by rw [List.take_append_of_le_length (by omega)]) hr
        have hpos := List.length_pos_of_ne_nil hv
        have : ∀ {a : Int} {rs : List Record}, ((front ++ u).length : Int) ≤ a → DataFrom enc isVar (front ++ u) a rs b → ((front ++ u).length : Int) ≤ b := by
          intro a rs ha h
          cases h with
          | nil => exact ha
          | cons _ h1 _ _ => omega
        have := this (by simp only [List.length_append] at *; omega) h
        omega
      | cons line ws =>
        have hline := hl line List.mem_cons_self
        rw [List.flatten_cons, List.append_assoc] at hr
        obtain ⟨rfl, -⟩ := base_size hline.1 hline.2 (take_four hline.1 _) hr
        have e : front ++ ((line :: ws).flatten ++ u) = (front ++ line) ++ (ws.flatten ++ u) := by simp
        rw [e] at h hb
        rw [show ((front.length : Int) + line.length) = ((front ++ line).length : Int) by simp] at h
        rcases ih ws (front ++ line) (fun l hm => hl l (List.mem_cons_of_mem _ hm)) h hb with ⟨datas, last, rest, rfl, h4⟩ | h4
        · exact .inl ⟨line :: datas, last, rest, rfl, by rw [h4]; simp⟩
        · right; rw [h4]; simp

/-- A part of a text of several lines: whole lines and a part of the next one. -/
theorem cut_lines {d : Bytes} (hd : d ≠ []) : ∀ (lines : List Bytes) (c : Bytes), lines.flatten = c ++ d →
    ∃ ws u v rest, lines = ws ++ (u ++ v) :: rest ∧ c = ws.flatten ++ u ∧ v ≠ []
  | [], c, h => absurd (List.append_eq_nil_iff.1 h.symm).2 hd
  | l :: ls, c, h => by
    rw [List.flatten_cons] at h
    by_cases hc : c.length < l.length
    · refine ⟨[], c, l.drop c.length, ls, ?_, by simp, by simp; omega⟩
      have : l.take c.length = c := by
        have := congrArg (List.take c.length) h
        rwa [List.take_append_of_le_length (by omega), List.take_left] at this
      rw [List.nil_append]
      conv => lhs; rw [← List.take_append_drop c.length l, this]
    · have e : c = l ++ c.drop l.length := by
        have := congrArg (List.take l.length) h
        rw [List.take_left, List.take_append_of_le_length (by omega)] at this
        conv => lhs; rw [← List.take_append_drop l.length c, ← this]
      rw [e, List.append_assoc] at h
      obtain ⟨ws, u, v, rest, h1, h2, h3⟩ := cut_lines hd ls (c.drop l.length) (List.append_cancel_left h)
      exact ⟨l :: ws, u, v, rest, by rw [h1]; rfl, by rw [e, h2]; simp, h3⟩

/-- C129. `File.Parse` accepts a part of a text that it accepts only if nothing but line breaks is missing. The text is to consist of nothing but records
and line breaks, as in C108. -/
theorem C129_parse (raw first : Bytes) (ls : List Bytes) (hd : Divided raw (first :: ls)) (enc : Enc) (isVar : Bool) (ht : Tells first enc isVar)
    (hw : enc = .packed → ∀ line ∈ first :: ls, ∀ v, ¬ SignedDecimal (line.take 4) v) (f : File)
    (h : ∃ fuel, (newFile enc).parse fuel raw isVar = some (f, none)) (n : Nat) (g : File) :
    (∃ fuel, (newFile enc).parse fuel (raw.take n) isVar = some (g, none)) ↔ g = f ∧ withoutBreaks (raw.drop n) = [] := by
  obtain ⟨ps, hps, hrec, hflat⟩ := hd
  have htexts := recordsOf_texts hps
  have hlong := recordsOf_long hps
  rw [hrec] at htexts hlong
  have hl : ∀ l ∈ first :: ls, Line enc l := fun l hm => ⟨htexts l hm, fun h => hw h l hm⟩
  have hfirst := hlong first List.mem_cons_self
  have hv := ((tells_iff hfirst _ _).1 ht).2.2
  have hsplit : withoutBreaks raw = withoutBreaks (raw.take n) ++ withoutBreaks (raw.drop n) := by
    rw [← withoutBreaks_append, List.take_append_drop]
  rw [C102_parse] at h ⊢
  by_cases hnil : withoutBreaks (raw.drop n) = []
  · rw [hnil, List.append_nil] at hsplit
    rw [← hsplit]
    refine ⟨fun hg => ⟨?_, hnil⟩, fun hg => hg.1 ▸ h⟩
    rw [hflat, textOf_lines hl hv.symm (by omega)] at h hg
    obtain ⟨d1, l1, n1, m1, e1, a1, a2, a3, a4, a5, -⟩ := h
    obtain ⟨d2, l2, n2, m2, e2, b1, b2, b3, b4, b5, -⟩ := hg
    rw [e1] at e2
    obtain ⟨rfl, e3⟩ := List.append_inj' e2 rfl
    cases e3
    obtain ⟨f1, f2, f3, f4⟩ := f
    obtain ⟨g1, g2, g3, g4⟩ := g
    simp only at a1 a2 a3 a5 b1 b2 b3 b5
    rw [a2] at b2
    rw [a5] at b5
    cases b2
    cases b5
    have : ∀ {ds : List Bytes} {x y : List Record}, List.Forall₂ (fun line r => ∃ k, (newBase enc).parse line isVar = (r, .ok k)) ds x →
        List.Forall₂ (fun line r => ∃ k, (newBase enc).parse line isVar = (r, .ok k)) ds y → x = y := by
      intro ds x y hx
      induction hx generalizing y with
      | nil => intro hy; cases hy; rfl
      | cons h1 _ ih =>
        intro hy
        cases hy with
        | cons h3 h4 =>
          obtain ⟨k, hk⟩ := h1
          obtain ⟨k', hk'⟩ := h3
          rw [hk] at hk'
          cases hk'
          rw [ih h4]
    rw [this a3 b3, a1, b1]
  · refine ⟨fun hg => ?_, fun hg => absurd hg.2 hnil⟩
    exfalso
    rw [hflat] at hsplit h
    obtain ⟨ws, u, v, rest, e, hc, hvne⟩ := cut_lines hnil _ _ hsplit
    rw [hc] at hg
    have huv := hl (u ++ v) (by rw [e]; simp)
    have hvpos := List.length_pos_of_ne_nil hvne
    obtain ⟨a, b, m, -, h2, h3, h4, h5, h6, h7, h8⟩ := hg
    obtain ⟨fs, -, h2⟩ := newHeader_parse_shape h2
    obtain ⟨ft, -, h7'⟩ := newTrailer_parse_shape h7
    have beyond : ∀ {a : Int} {rs : List Record}, ((ws.flatten ++ u).length : Int) ≤ a → DataFrom (newFile enc).format isVar (ws.flatten ++ u) a rs b → False := by
      intro a rs ha h
      cases h with
      | nil => omega
      | cons _ h1 _ _ => omega
    cases ws with
    | nil =>
      simp only [List.nil_append, List.cons.injEq, List.flatten_nil] at e h2 h3 h5 beyond
      obtain ⟨rfl, -⟩ := e
      have hlu := header_long h2
      obtain ⟨rfl, -⟩ := header_size huv.1 huv.2 (by rw [List.take_append_of_le_length (by omega)])
        (by rw [← hv, isVariableLength_append (by omega)]) h2
      exact beyond (by rw [List.length_append]; omega) h3
    | cons first' ws =>
      simp only [List.cons_append, List.cons.injEq] at e
      obtain ⟨rfl, e⟩ := e
      have hfl := hl first List.mem_cons_self
      rw [List.flatten_cons, List.append_assoc] at h2 h3 h5 h6 h7' h8
      obtain ⟨rfl, -⟩ := header_size hfl.1 hfl.2 (take_four hfl.1 _) (by rw [isVariableLength_append (by omega), hv]) h2
      rcases dataFrom_cut huv hvne _ ws first (fun l hm => hl l (by rw [e]; simp [hm])) h3 h5 with ⟨datas, last, rest', rfl, rfl⟩ | rfl
      · have hlast := hl last (by rw [e]; simp)
        have hdrop : (first ++ ((datas ++ last :: rest').flatten ++ u)).drop ((first ++ datas.flatten).length : Int).toNat =
            last ++ (rest'.flatten ++ u) := by
          rw [Int.toNat_natCast, List.flatten_append, List.flatten_cons]
          rw [show first ++ (datas.flatten ++ (last ++ rest'.flatten) ++ u) = (first ++ datas.flatten) ++ (last ++ (rest'.flatten ++ u)) by simp,
            List.drop_left]
        rw [hdrop] at h6 h7'
        have hm := trailer_size hlast.1 hlast.2 (take_four hlast.1 _) h7'
        subst hm
        have hz : rest'.flatten ++ u = [] := by
          refine List.eq_nil_of_length_eq_zero ?_
          simp only [List.flatten_append, List.flatten_cons, List.length_append] at h8 ⊢
          omega
        rw [hz, List.append_nil] at h6
        rw [textOf_lines hl hv.symm (by omega)] at h
        obtain ⟨d1, l1, n1, m1, e1, -, -, a3, -⟩ := h
        have hmem : last ∈ d1 := by
          rw [e] at e1
          have : datas ++ last :: rest' ++ (u ++ v) :: rest = (datas ++ last :: (rest' ++ ((u ++ v) :: rest).dropLast)) ++ [((u ++ v) :: rest).getLast (by simp)] := by
            have := List.dropLast_concat_getLast (l := (u ++ v) :: rest) (by simp)
            simp only [List.append_assoc, List.cons_append]
            rw [this]
          rw [this] at e1
          rw [← (List.append_inj' e1 rfl).1]
          simp
        obtain ⟨i, hi, rfl⟩ := List.getElem_of_mem hmem
        obtain ⟨k, hk⟩ := (List.forall₂_iff_get.1 a3).2 i hi (by rw [← a3.length_eq]; exact hi)
        exact h6 _ _ hk
      · have hdrop : (first ++ (ws.flatten ++ u)).drop ((first ++ ws.flatten).length : Int).toNat = u := by
          rw [Int.toNat_natCast, ← List.append_assoc, List.drop_left]
        rw [hdrop] at h7'
        have hlu := trailer_long h7'
        have hm := trailer_size huv.1 huv.2 (by rw [List.take_append_of_le_length (by omega)]) h7'
        subst hm
        simp only [List.length_append] at h8
        omega

/-! ### Non-vacuity -/

/-- Case of `C129_same` and of `C129_cut`: a file with two data records, and a text behind it. -/
example : readFile slow (fixedFile.string true ++ b! "end") = .ok fixedFile ∧ fixedFile.bases.length = 2 ∧
    ∃ ps, Pieces (fixedFile.string true ++ b! "end") ps :=
  ⟨readFile_text fixedFile_good (goodFile_noBreaks fixedFile_good) true _ slow_progress, rfl, pieces_exist _⟩

/-- Case of `C129_written`: one byte of the trailer is missing; a packed file without its last record. -/
example : GoodFile .character false fixedFile ∧ ¬ EarlyBrace (fixedFile.string true) ∧ 2480 < (fixedFile.string true).length ∧
    GoodFile .packed true packedFile ∧ (∀ t ∈ recordTexts packedFile, NoBreaks t) ∧ ¬ EarlyBrace (packedFile.string false) :=
  ⟨fixedFile_good, fixedFile_noBrace true, by decide +kernel, packedFile_good, packedFile_noBreaks, packedFile_noBrace false⟩

/-- Case of `C129_parse`. -/
example : ∃ ls, Divided (fixedFile.string true) (fixedFile.header.string :: ls) ∧ Tells fixedFile.header.string .character false ∧
    (newFile .character).parse 9 (fixedFile.string true) false = some (fixedFile, none) := by
  refine ⟨fixedFile.bases.map Record.string ++ [fixedFile.trailer.string], ?_, ⟨by decide +kernel, by decide +kernel⟩,
    C43_character false fixedFile fixedFile_good true 9 (by decide)⟩
  rw [File.string_eq]
  exact divided_join true fixedFile_texts

/-- Case of `C129_json_written`. -/
example : JsonEnvOk isoEnv ∧ MapOrders backwards ∧ JsonFile .packed (jsonSample .packed 600 596) ∧ Detectable .packed (jsonSample .packed 600 596) ∧
    JsonText deepest (jsonSample .packed 600 596).toJson (jsonText (jsonSample .packed 600 596).toJson) :=
  ⟨isoEnv_ok, backwards_ok, jsonSample_ok _ _ _ (by decide +kernel) (by decide +kernel) (by decide +kernel), ⟨by decide +kernel, by decide +kernel⟩,
    jsonText_clean (clean_file 9995 _)⟩

/-- Case of `C129_json` and of `C129_opened`: a document with something behind it, and the part without that. -/
example : JsonText deepest (.obj []) (b! "{}") ∧ newFileFromReader (readJson isoEnv backwards firstJson) slow ([] ++ (b! "{}" ++ b! "x")) false =
      .ok (newFile .character) ∧
    newFileFromReader (readJson isoEnv backwards firstJson) slow ((b! "{}x").take 2) false = .ok (newFile .character) :=
  ⟨emptyObject, trailing_read, by decide +kernel⟩

end Metro2
