import Verif.Props.Again
import Verif.Props.JsonText

/-! C66, exactly: how much white space may come before a JSON document. -/

namespace Metro2

open Samples

/-- A header is only read from a line that begins with a number or contains a zero byte. -/
theorem header_start {line : Bytes} {f : File} {isVar : Bool} (h : readHeader (newFile .character) line = .ok (f, isVar)) :
    0 ∈ line ∨ ∃ i, Spec.SignedDecimal (line.take 4) i := by
  unfold readHeader at h
  split at h
  · cases h
  · split at h
    · cases h
    · next packed hp =>
      cases packed with
      | true =>
        left
        unfold isPacked at hp
        split at hp
        · next a b ha hb =>
          split at hp
          · next hz => rw [← hz.1]; exact List.mem_of_getElem? ha
          · split at hp
            · next c d hc hd =>
              simp only [Except.ok.injEq, decide_eq_true_eq] at hp
              rw [← hp.1]
              exact List.mem_of_getElem? hc
            · cases hp
        · cases hp
      | false =>
        right
        simp only [Bool.false_eq_true, if_false] at h
        rw [show ((newFile .character).setType messageMetroFormat).1 = newFile .character from setType_new .character] at h
        split at h
        · cases h
        · next hd n hh =>
          have hh' : parseHeader .character (newHeader .character).fields line (isVariableLength line) =
              ((parseHeader .character (newHeader .character).fields line (isVariableLength line)).1, .ok n) := by
            have h2 : ((newFile .character).header.parse line (isVariableLength line)).2 = .ok n := by rw [hh]
            exact Prod.ext rfl h2
          unfold parseHeader at hh'
          split at hh'
          · simp at hh'
          · generalize hq : parseLoop Enc.character.headerFormat (headerPolicy .character line (isVariableLength line)) true line 0
              (newHeader .character).fields = q at hh'
            obtain ⟨fs, x⟩ := q
            cases x with
            | some e => simp at hh'
            | none =>
              obtain ⟨-, -, i, hi, -⟩ := parseLoop_inv_bdw (blocked_header .character) (newHeader_typed .character) hq
              refine ⟨i, ?_⟩
              simp only [parseValue, show (bdwField .character).typ = .numeric from rfl] at hi
              cases hp : parseInt (line.take 4) with
              | error e => rw [hp] at hi; cases hi
              | ok j =>
                rw [hp] at hi
                cases hi
                exact (parseInt_ok_iff.1 hp).1

/-- Whatever is read as Metro 2 begins, but for line breaks, with a number, or contains a zero byte. -/
theorem raw_start {p : Plan} (hp : p.Progress) {data : Bytes} {f : File} (h : readFile p data = .ok f) :
    0 ∈ data ∨ ∃ i, Spec.SignedDecimal ((Spec.withoutBreaks data).take 4) i := by
  obtain ⟨ps, hps⟩ := pieces_exist data
  rw [readFile_lines hp hps] at h
  cases hps with
  | nil hn => cases h
  | @cons a b ps ha hb =>
    unfold Spec.recordsOf at h
    by_cases hl : a.length ≤ Spec.bufferSize
    · rw [List.takeWhile_cons_of_pos (by simpa using hl), List.map_cons, readLines] at h
      split at h
      · cases h
      · next f1 isVar h1 =>
        rcases header_start h1 with hz | ⟨i, hi⟩
        · left
          exact List.mem_append_left _ (List.mem_of_mem_filter hz)
        · right
          refine ⟨i, ?_⟩
          rw [withoutBreaks_append, List.take_append, Nat.sub_eq_zero_of_le ha.1, List.take_zero, List.append_nil]
          exact hi
    · rw [List.takeWhile_cons_of_neg (by simpa using hl), List.map_nil] at h
      cases h

/-- C66, the other side: after 1024 or more bytes of white space a JSON document is refused, whatever it is and whatever follows it without
zero byte. -/
theorem C66_refused (json : Bytes → Except Err File) (p : Plan) (hp : p.Progress) (w s : Bytes) (hw : Spec.Space w) (hl : 1024 ≤ w.length)
    (hs : s.head? = some 123) (hz : 0 ∉ s) : ∃ e, newFileFromReader json p (w ++ s) false = .error e := by
  cases hr : newFileFromReader json p (w ++ s) false with
  | error e => exact ⟨e, rfl⟩
  | ok f =>
    exfalso
    have hj : ¬ Spec.EarlyBrace (w ++ s) := by
      intro hj
      unfold Spec.EarlyBrace at hj
      rw [List.take_append, Nat.sub_eq_zero_of_le hl, List.take_zero, List.append_nil] at hj
      rcases hw _ (List.mem_of_mem_take hj) with h | h | h | h <;> exact absurd h (by decide)
    rw [newFile_raw json p (by intro hn; rw [(List.append_eq_nil_iff.1 hn).2] at hs; cases hs) hj] at hr
    rcases raw_start hp hr with h0 | ⟨i, ds, n, hne, hd, h⟩
    · rcases List.mem_append.1 h0 with h0 | h0
      · exact space_no_zero hw h0
      · exact hz h0
    · obtain ⟨s', rfl⟩ : ∃ s', s = 123 :: s' := by
        cases s with
        | nil => cases hs
        | cons c s' => cases hs; exact ⟨s', rfl⟩
      have hfirst : ∃ c r, (Spec.withoutBreaks (w ++ 123 :: s')).take 4 = c :: r ∧ (c = 32 ∨ c = 9 ∨ c = 123) := by
        rw [withoutBreaks_append]
        cases hwb : Spec.withoutBreaks w with
        | nil =>
          rw [List.nil_append]
          exact ⟨123, (Spec.withoutBreaks s').take 3, rfl, .inr (.inr rfl)⟩
        | cons c r =>
          refine ⟨c, (r ++ Spec.withoutBreaks (123 :: s')).take 3, rfl, ?_⟩
          have hm : c ∈ Spec.withoutBreaks w := by rw [hwb]; exact .head _
          obtain ⟨h1, h2⟩ := List.mem_filter.1 hm
          simp only [decide_eq_true_eq] at h2
          rcases hw c h1 with h | h | h | h
          · exact .inl h
          · exact .inr (.inl h)
          · exact absurd h h2.2
          · exact absurd h h2.1
      obtain ⟨c, r, hc, hc'⟩ := hfirst
      rw [hc] at h
      have hdig : ∀ c ∈ ds, 48 ≤ c.toNat ∧ c.toNat ≤ 57 := fun c hc => hd.1 c hc
      rcases h with ⟨h, -⟩ | ⟨h, -⟩ | ⟨h, -⟩
      · have := hdig c (by rw [← h]; exact .head _)
        rcases hc' with rfl | rfl | rfl <;> exact absurd this (by decide)
      · have := (List.cons.inj h).1
        rcases hc' with rfl | rfl | rfl <;> exact absurd this (by decide)
      · have := (List.cons.inj h).1
        rcases hc' with rfl | rfl | rfl <;> exact absurd this (by decide)

/-- C66, exactly: a document that is accepted without white space before it is accepted with white space before it if and only if that is less than
1024 bytes; and then with the same result. -/
theorem C66_iff (env : JsonEnv) (visits : Nat → List (Bytes × Json) → List (Bytes × Json)) (p : Plan) (hp : p.Progress)
    (kvs : List (Bytes × Json)) (w t r : Bytes) (hw : Spec.Space w) (ht : Spec.JsonText Spec.deepest (.obj kvs) t) (hz : 0 ∉ r) (f : File)
    (hok : newFileFromReader (readJson env visits firstJson) p (t ++ r) false = .ok f) :
    newFileFromReader (readJson env visits firstJson) p (w ++ (t ++ r)) false = .ok f ↔ w.length < 1024 := by
  constructor
  · intro h
    rcases Nat.lt_or_ge w.length 1024 with hl | hl
    · exact hl
    · exfalso
      obtain ⟨e, he⟩ := C66_refused (readJson env visits firstJson) p hp w (t ++ r) hw hl
        (by obtain ⟨s, rfl⟩ := obj_starts ht; rfl) (zero_not_append (zero_not_json ht) hz)
      rw [h] at he
      cases he
  · intro hl
    have := C66_same_partial env visits p kvs w t r [] t r hw space_nil hl (by decide) ht ht
    rw [this]
    exact hok

/-- The hypotheses of `C66_refused` and `C66_iff` are met by an empty object after 2000 line breaks. -/
example : ∃ e, newFileFromReader (readJson isoEnv backwards firstJson) slow (List.replicate 2000 10 ++ b! "{}") false = .error e :=
  C66_refused _ slow slow_progress _ _ (fun c hc => .inr (.inr (.inl (List.eq_of_mem_replicate hc)))) (by rw [List.length_replicate]; decide) rfl (by decide)

example : newFileFromReader (readJson isoEnv backwards firstJson) slow (List.replicate 1023 10 ++ (b! "{}" ++ [])) false = .ok (newFile .character) :=
  (C66_iff isoEnv backwards slow slow_progress [] _ _ [] (fun c hc => .inr (.inr (.inl (List.eq_of_mem_replicate hc)))) emptyObject (by decide)
    _ (by decide +kernel)).2 (by rw [List.length_replicate]; decide)

/-! ### C67 -/

theorem readJson_null {env : JsonEnv} {visits : Nat → List (Bytes × Json) → List (Bytes × Json)} (hv : Spec.MapOrders visits) {data : Bytes}
    (h : firstJson data = some .null) : readJson env visits firstJson data = .ok (newFile .character) := by
  have h2 : (newFile .character).ofJson env visits .null = some (newFile .character) := by
    show (visits 0 []).foldlM (decodeFileEntry env visits) (newFile .character) = _
    rw [(hv 0 []).eq_nil]
    rfl
  unfold readJson
  rw [h]
  show (match (newFile .character).ofJson env visits .null with
    | none => Except.error Err.json
    | some f => .ok f) = _
  rw [h2]

theorem null_text {n : Nat} {t : Bytes} (h : Spec.JsonText n .null t) : t = b! "null" := by
  cases h
  rfl

/-- C67, exactly: input with an early brace is accepted if and only if, after white space, it begins with `null`, which gives an empty file, or with the text
of an object that would be accepted alone, which gives the same file. -/
theorem C67_iff (env : JsonEnv) (visits : Nat → List (Bytes × Json) → List (Bytes × Json)) (hv : Spec.MapOrders visits) (p : Plan) (data : Bytes)
    (f : File) (hb : Spec.EarlyBrace data) :
    newFileFromReader (readJson env visits firstJson) p data false = .ok f ↔
      ∃ w t r, data = w ++ (t ++ r) ∧ Spec.Space w ∧
        ((t = b! "null" ∧ f = newFile .character) ∨
          ∃ kvs, Spec.JsonText Spec.deepest (.obj kvs) t ∧ newFileFromReader (readJson env visits firstJson) p t false = .ok f) := by
  have alone : ∀ {kvs t}, Spec.JsonText Spec.deepest (.obj kvs) t → newFileFromReader (readJson env visits firstJson) p t false =
      readJson env visits firstJson t ∧ firstJson t = some (.obj kvs) := by
    intro kvs t ht
    have h1 := newFile_json (readJson env visits firstJson) p (earlyBrace_obj (w := []) (r := []) (by decide) ht)
    have h2 := firstJson_obj (w := []) (r := []) space_nil ht
    rw [List.nil_append, List.append_nil] at h1 h2
    exact ⟨h1, h2⟩
  rw [newFile_json _ p hb]
  constructor
  · intro h
    have h' := h
    unfold readJson at h
    cases hj : firstJson data with
    | none => rw [hj] at h; cases h
    | some j =>
      obtain ⟨w, t, r, hd, hw, ht⟩ := firstJson_sound hj
      refine ⟨w, t, r, hd, hw, ?_⟩
      rw [hj] at h
      cases j with
      | null =>
        refine .inl ⟨null_text ht, ?_⟩
        rw [readJson_null hv hj] at h'
        exact (Except.ok.inj h').symm
      | obj kvs =>
        refine .inr ⟨kvs, ht, ?_⟩
        rw [(alone ht).1, ← h']
        unfold readJson
        rw [(alone ht).2, hj]
      | bool b => cases h
      | num l => cases h
      | str s => cases h
      | arr xs => cases h
  · rintro ⟨w, t, r, rfl, hw, ⟨rfl, rfl⟩ | ⟨kvs, ht, h⟩⟩
    · exact readJson_null hv (firstJson_of hw .null (fun l hl => nomatch hl))
    · rw [(alone ht).1] at h
      rw [← h]
      unfold readJson
      rw [(alone ht).2, firstJson_obj hw ht]

example : newFileFromReader (readJson isoEnv backwards firstJson) slow (b! " {} ]") false = .ok (newFile .character) :=
  (C67_iff isoEnv backwards backwards_ok slow _ _ (by unfold Spec.EarlyBrace; decide +kernel)).2
    ⟨b! " ", b! "{}", b! " ]", rfl, fun c hc => .inl (by simpa using hc), .inr ⟨[], emptyObject, by decide +kernel⟩⟩

end Metro2
