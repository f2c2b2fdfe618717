import Verif.Props.Json
import Verif.Props.Server
import Verif.Props.Command
import Verif.Lemmas.JsonWrite

/-! C65–C68: the text of JSON, written and read. -/

namespace Metro2

open Samples

/-! ### Lemmas -/

theorem space_tab : Spec.Space [9] := by
  intro c hc
  rw [List.mem_singleton] at hc
  exact .inr (.inl (by rw [hc]; rfl))

theorem space_two : Spec.Space [32, 32] := by
  intro c hc
  have : c = 32 := by simpa using hc
  exact .inl (by rw [this]; rfl)

theorem obj_starts {n : Nat} {kvs : List (Bytes × Json)} {t : Bytes} (h : Spec.JsonText n (.obj kvs) t) :
    ∃ s, t = 123 :: (s ++ [125]) := by
  cases h with
  | noMembers hw => exact ⟨_, rfl⟩
  | members h => exact ⟨_, rfl⟩

theorem toJson_obj (f : File) : ∃ kvs, f.toJson = .obj kvs := ⟨_, rfl⟩

theorem earlyBrace_obj {w t r : Bytes} {n : Nat} {kvs : List (Bytes × Json)} (hw : w.length < 1024) (h : Spec.JsonText n (.obj kvs) t) :
    Spec.EarlyBrace (w ++ (t ++ r)) := by
  obtain ⟨s, rfl⟩ := obj_starts h
  show (123 : UInt8) ∈ _
  rw [List.take_append]
  apply List.mem_append_right
  obtain ⟨m, hm⟩ : ∃ m, 1024 - w.length = m + 1 := ⟨1024 - w.length - 1, by omega⟩
  rw [hm, List.cons_append, List.take_succ_cons]
  exact List.mem_cons_self

theorem firstJson_obj {w t r : Bytes} {kvs : List (Bytes × Json)} (hw : Spec.Space w) (h : Spec.JsonText Spec.deepest (.obj kvs) t) :
    firstJson (w ++ (t ++ r)) = some (.obj kvs) :=
  firstJson_of hw h (fun l hl => nomatch hl)

theorem file_text_read {env : JsonEnv} (he : Spec.JsonEnvOk env) {visits : Nat → List (Bytes × Json) → List (Bytes × Json)}
    (hv : Spec.MapOrders visits) {enc : Enc} {f : File} (hf : Spec.JsonFile enc f) (hd : Spec.Detectable enc f) (p : Plan)
    {w t r : Bytes} (hs : Spec.Space w) (hw : w.length < 1024) (ht : Spec.JsonText Spec.deepest f.toJson t) :
    newFileFromReader (readJson env visits firstJson) p (w ++ (t ++ r)) false = .ok f := by
  obtain ⟨kvs, hk⟩ := toJson_obj f
  rw [hk] at ht
  exact C47_reader env he visits hv enc f hf hd firstJson p _ (by rw [hk]; exact firstJson_obj hs ht) (earlyBrace_obj hw ht)

/-! ### C65 -/

/-- C65: what is written is JSON. The texts of `json.Encoder`, of `json.MarshalIndent` in the service and of `json.Indent` in the command stand for
the tree of the file. -/
theorem C65_written (f : File) :
    (∃ t, encodeText f.toJson = t ++ ['\n'.toNat.toUInt8] ∧ Spec.JsonText 5 f.toJson t) ∧
    Spec.JsonText 5 f.toJson (indentText "\t".toUTF8.data.toList 0 f.toJson) ∧
    Spec.JsonText 5 f.toJson (indentText "  ".toUTF8.data.toList 0 f.toJson) :=
  ⟨⟨_, rfl, jsonText_clean (clean_file 0 f)⟩, indentText_clean space_tab (clean_file 0 f) 0, indentText_clean space_two (clean_file 0 f) 0⟩

/-- C65: what is written is read back. -/
theorem C65_read (env : JsonEnv) (he : Spec.JsonEnvOk env) (visits : Nat → List (Bytes × Json) → List (Bytes × Json)) (hv : Spec.MapOrders visits)
    (enc : Enc) (f : File) (hf : Spec.JsonFile enc f) (hd : Spec.Detectable enc f) (p : Plan) (text : Bytes)
    (ht : text ∈ [encodeText f.toJson, indentText "\t".toUTF8.data.toList 0 f.toJson, indentText "  ".toUTF8.data.toList 0 f.toJson]) :
    newFileFromReader (readJson env visits firstJson) p text false = .ok f := by
  have hc : Clean Spec.deepest f.toJson := clean_file 9995 f
  have main : ∀ {t : Bytes} (r : Bytes), Spec.JsonText Spec.deepest f.toJson t →
      newFileFromReader (readJson env visits firstJson) p (t ++ r) false = .ok f := fun r h =>
    file_text_read (w := []) (r := r) he hv hf hd p space_nil (by decide) h
  simp only [List.mem_cons, List.not_mem_nil, or_false] at ht
  rcases ht with rfl | rfl | rfl
  · exact main [10] (jsonText_clean hc)
  · have := main [] (indentText_clean space_tab hc 0)
    rwa [List.append_nil] at this
  · have := main [] (indentText_clean space_two hc 0)
    rwa [List.append_nil] at this

/-- Case of `C65_written`. -/
example : newFileFromReader (readJson isoEnv backwards firstJson) slow (encodeText (jsonSample .packed 600 596).toJson) false =
    .ok (jsonSample .packed 600 596) :=
  C65_read _ isoEnv_ok _ backwards_ok .packed _ (jsonSample_ok _ _ _ (by decide +kernel) (by decide +kernel) (by decide +kernel))
    ⟨by decide +kernel, by decide +kernel⟩ _ _ (.head _)

/-! ### C66 -/

/-- C66 as it should be: two texts of the same object are read alike, whatever white space comes first and whatever follows. -/
def C66_statement : Prop :=
  ∀ (env : JsonEnv) (visits : Nat → List (Bytes × Json) → List (Bytes × Json)) (p : Plan), p.Progress →
    ∀ (kvs : List (Bytes × Json)) (w t r w' t' r' : Bytes), Spec.Space w → Spec.Space w' →
    Spec.JsonText Spec.deepest (.obj kvs) t → Spec.JsonText Spec.deepest (.obj kvs) t' →
    newFileFromReader (readJson env visits firstJson) p (w ++ (t ++ r)) false =
      newFileFromReader (readJson env visits firstJson) p (w' ++ (t' ++ r')) false

/-- C66 where it holds: if less than 1024 bytes of white space come first. -/
theorem C66_same_partial (env : JsonEnv) (visits : Nat → List (Bytes × Json) → List (Bytes × Json)) (p : Plan)
    (kvs : List (Bytes × Json)) (w t r w' t' r' : Bytes) (hw : Spec.Space w) (hw' : Spec.Space w')
    (hl : w.length < 1024) (hl' : w'.length < 1024)
    (ht : Spec.JsonText Spec.deepest (.obj kvs) t) (ht' : Spec.JsonText Spec.deepest (.obj kvs) t') :
    newFileFromReader (readJson env visits firstJson) p (w ++ (t ++ r)) false =
      newFileFromReader (readJson env visits firstJson) p (w' ++ (t' ++ r')) false := by
  rw [newFile_json _ p (earlyBrace_obj hl ht), newFile_json _ p (earlyBrace_obj hl' ht')]
  unfold readJson
  rw [firstJson_obj hw ht, firstJson_obj hw' ht']

/-- An object with one member. -/
theorem oneMember {k v s t : Bytes} (hk : Spec.StringText k s) (hv : Spec.StringText v t) : Spec.JsonText Spec.deepest (.obj [(k, .str v)])
    (123 :: ([] ++ 34 :: (s ++ 34 :: ([] ++ 58 :: ([] ++ (34 :: (t ++ [34])) ++ []))) ++ [125])) :=
  .members (n := 9999) (.one (.mk space_nil hk space_nil space_nil (.str hv) space_nil))

theorem space_two_nl : Spec.Space [32, 10] := by
  intro c hc
  simp only [List.mem_cons, List.not_mem_nil, or_false] at hc
  rcases hc with rfl | rfl
  · exact .inl rfl
  · exact .inr (.inr (.inl rfl))

theorem text_a : Spec.StringText [97] [97] := .char (c := 'a') (s := [97]) (.plain 'a' (by decide) (by decide) (by decide)) .nil

theorem text_a' : Spec.StringText [97] (b! "\\u0061") :=
  .char (c := 'a') (s := b! "\\u0061") (.unit 'a' ⟨48, 48, 54, 49, 0, 0, 6, 1, rfl, .inl (by decide), .inl (by decide), .inl (by decide), .inl (by decide), rfl⟩) .nil

example : newFileFromReader (readJson isoEnv backwards firstJson) slow (b! " \n{\"a\":\"\\u0061\"} ]") false =
    newFileFromReader (readJson isoEnv backwards firstJson) slow (b! "{\"a\":\"a\"}") false :=
  C66_same_partial isoEnv backwards slow [([97], .str [97])] [32, 10] _ [32, 93] [] _ [] (space_two_nl) space_nil (by decide) (by decide)
    (oneMember text_a text_a') (oneMember text_a text_a)

/-- No record begins in a text of blanks that is not long enough. -/
theorem blanks_no_piece {s a b : Bytes} (hs : s = a ++ b) (h4 : s.take 4 = [32, 32, 32, 32]) (hl : s.length < 8224) : ¬ Spec.Piece a := by
  rintro ⟨h1, h2, -⟩
  have hle : (Spec.withoutBreaks a).length ≤ a.length := List.length_filter_le _ _
  have ha4 : a.take 4 = [32, 32, 32, 32] := by
    rw [hs, List.take_append, show 4 - a.length = 0 by omega, List.take_zero, List.append_nil] at h4
    exact h4
  have hal : a.length < 8224 := by
    rw [hs, List.length_append] at hl; omega
  have hw : (Spec.withoutBreaks a).take 4 = [32, 32, 32, 32] := by
    rw [← List.take_append_drop 4 a, ha4, Spec.withoutBreaks, List.filter_append]
    rw [show [32, 32, 32, 32].filter (fun c => decide (c ≠ '\r'.toNat.toUInt8 ∧ c ≠ '\n'.toNat.toUInt8)) = [32, 32, 32, 32] by decide]
    rfl
  rw [hw] at h2
  rcases h2 with ⟨⟨ds, n, hne, hd, h⟩, -⟩ | ⟨-, h, -⟩
  · have hbad : ∀ c ∈ ds, 48 ≤ c.toNat := fun c hc => (hd.1 c hc).1
    rcases h with ⟨h, -⟩ | ⟨h, -⟩ | ⟨h, -⟩
    · exact absurd (hbad 32 (by rw [← h]; exact .head _)) (by decide)
    · exact absurd (List.cons.inj h).1 (by decide)
    · exact absurd (List.cons.inj h).1 (by decide)
  · have : (Spec.withoutBreaks a).length = 8224 := h
    omega

theorem emptyObject : Spec.JsonText Spec.deepest (.obj []) (b! "{}") := .noMembers (n := 9999) (w := []) space_nil

theorem blanks_unread (n : Nat) (h1 : 1024 ≤ n) (h2 : n < 8000) (json : Bytes → Except Err File) (p : Plan) (hp : p.Progress) :
    newFileFromReader json p (List.replicate n 32 ++ b! "{}") false = .error .invalidSegment := by
  have htake : ∀ m, m ≤ n → (List.replicate n (32 : UInt8) ++ b! "{}").take m = List.replicate m 32 := by
    intro m hm
    rw [List.take_append_of_le_length (by rw [List.length_replicate]; exact hm), List.take_replicate, Nat.min_eq_left hm]
  rw [newFile_raw json p]
  · rw [readFile_lines (ps := []) hp (.nil fun a b hab => blanks_no_piece hab (htake 4 (by omega)) (by
      rw [List.length_append, List.length_replicate]
      show n + 2 < 8224
      omega))]
    rfl
  · intro h
    have := congrArg List.length h
    rw [List.length_append, List.length_replicate] at this
    have : n + 2 = 0 := this
    omega
  · unfold Spec.EarlyBrace
    rw [htake 1024 h1]
    intro hm
    exact absurd (List.eq_of_mem_replicate hm) (by decide)

/-- C66 is violated: after 1024 bytes of white space an empty object is no file any more. -/
theorem C66_violated : ¬ C66_statement := by
  intro h
  have h := h isoEnv backwards slow slow_progress [] [] (b! "{}") [] (List.replicate 1024 32) (b! "{}") [] space_nil
    (fun c hc => .inl (List.eq_of_mem_replicate hc)) emptyObject emptyObject
  rw [List.append_nil, blanks_unread 1024 (by decide) (by decide) _ slow slow_progress,
    show newFileFromReader (readJson isoEnv backwards firstJson) slow ([] ++ b! "{}") false = .ok (newFile .character) by decide +kernel] at h
  cases h

/-! ### C67 -/

theorem space_no_zero {w : Bytes} (h : Spec.Space w) : 0 ∉ w := by
  intro hm
  rcases h 0 hm with h | h | h | h <;> exact absurd h (by decide)

/-- What the JSON branch accepts begins with an object or `null`. -/
theorem readJson_shape {env : JsonEnv} {visits : Nat → List (Bytes × Json) → List (Bytes × Json)} {data : Bytes} {f : File}
    (h : readJson env visits firstJson data = .ok f) :
    ∃ j w t r, data = w ++ (t ++ r) ∧ Spec.Space w ∧ Spec.JsonText Spec.deepest j t ∧ (j = .null ∨ ∃ kvs, j = .obj kvs) := by
  unfold readJson at h
  cases hj : firstJson data with
  | none => rw [hj] at h; cases h
  | some j =>
    rw [hj] at h
    obtain ⟨w, t, r, hd, hw, ht⟩ := firstJson_sound hj
    refine ⟨j, w, t, r, hd, hw, ht, ?_⟩
    cases j with
    | null => exact .inl rfl
    | obj kvs => exact .inr ⟨kvs, rfl⟩
    | bool b => cases h
    | num l => cases h
    | str s => cases h
    | arr xs => cases h

/-- C67 as it should be: what is accepted on the JSON branch is the text of an object, with white space around it. -/
def C67_statement : Prop :=
  ∀ (env : JsonEnv) (visits : Nat → List (Bytes × Json) → List (Bytes × Json)) (p : Plan) (data : Bytes) (f : File), Spec.EarlyBrace data →
    newFileFromReader (readJson env visits firstJson) p data false = .ok f →
    ∃ kvs w t z, data = w ++ (t ++ z) ∧ Spec.Space w ∧ Spec.Space z ∧ Spec.JsonText Spec.deepest (.obj kvs) t

/-- C67 where it holds: what is accepted begins with the text of an object or of `null`. What follows is not looked at. -/
theorem C67_accepted_partial (env : JsonEnv) (visits : Nat → List (Bytes × Json) → List (Bytes × Json)) (p : Plan) (data : Bytes) (f : File)
    (hb : Spec.EarlyBrace data) (h : newFileFromReader (readJson env visits firstJson) p data false = .ok f) :
    ∃ j w t r, data = w ++ (t ++ r) ∧ Spec.Space w ∧ Spec.JsonText Spec.deepest j t ∧ (j = .null ∨ ∃ kvs, j = .obj kvs) := by
  rw [newFile_json _ p hb] at h
  exact readJson_shape h

example : ∃ f, Spec.EarlyBrace (b! " {} x") ∧ newFileFromReader (readJson isoEnv backwards firstJson) slow (b! " {} x") false = .ok f :=
  ⟨newFile .character, by unfold Spec.EarlyBrace; decide +kernel, by decide +kernel⟩

theorem trailing_read : newFileFromReader (readJson isoEnv backwards firstJson) slow (b! "{}x") false = .ok (newFile .character) := by decide +kernel

/-- C67 is violated: an object followed by anything is accepted. -/
theorem C67_violated : ¬ C67_statement := by
  intro h
  obtain ⟨kvs, w, t, z, hd, hw, hz, ht⟩ := h isoEnv backwards slow (b! "{}x") _ (by unfold Spec.EarlyBrace; decide +kernel) trailing_read
  obtain ⟨s, rfl⟩ := obj_starts ht
  have hlast := congrArg List.getLast? hd
  by_cases hze : z = []
  · subst hze
    rw [List.append_nil, List.getLast?_append_of_ne_nil _ (by simp), ← List.cons_append, List.getLast?_append_of_ne_nil _ (by simp)] at hlast
    exact absurd hlast (by decide)
  · rw [List.getLast?_append_of_ne_nil _ (by simp), List.getLast?_append_of_ne_nil _ hze] at hlast
    have hm : (120 : UInt8) ∈ z := List.mem_of_getLast? hlast.symm
    rcases hz 120 hm with h | h | h | h <;> exact absurd h (by decide)

/-- C67 is violated by `null` before a brace, too: such a text is an empty file. -/
theorem C67_null_violated (env : JsonEnv) (visits : Nat → List (Bytes × Json) → List (Bytes × Json)) (hv : Spec.MapOrders visits) (p : Plan) :
    newFileFromReader (readJson env visits firstJson) p (b! "null{") false = .ok (newFile .character) := by
  rw [newFile_json _ p (by unfold Spec.EarlyBrace; decide +kernel)]
  have h1 : firstJson (b! "null{") = some .null :=
    firstJson_of (w := []) (t := b! "null") (r := b! "{") space_nil .null (fun l hl => nomatch hl)
  have h2 : (newFile .character).ofJson env visits .null = some (newFile .character) := by
    show (visits 0 []).foldlM (decodeFileEntry env visits) (newFile .character) = _
    rw [(hv 0 []).eq_nil]
    rfl
  unfold readJson
  rw [h1]
  show (match (newFile .character).ofJson env visits .null with
    | none => Except.error Err.json
    | some f => .ok f) = _
  rw [h2]

theorem zero_not_encode {c : Char} (h : 0x20 ≤ c.toNat) : 0 ∉ String.utf8EncodeChar c := by
  intro hm
  rcases encode_cases c with ⟨h1, e⟩ | ⟨-, h1⟩
  · rw [e, List.mem_singleton] at hm
    have := congrArg UInt8.toNat hm
    rw [UInt8.toNat_ofNat_of_lt' (show c.toNat < 256 by omega)] at this
    have : 0 = c.toNat := this
    omega
  · exact absurd (h1 0 hm) (by decide)

theorem zero_not_hex {c : UInt8} {n : Nat} (h : Spec.HexDigit c n) : (0 : UInt8) ≠ c := by
  rintro rfl
  have e1 : '0'.toNat = 48 := rfl
  have e2 : 'a'.toNat = 97 := rfl
  have e3 : 'A'.toNat = 65 := rfl
  have e4 : (0 : UInt8).toNat = 0 := rfl
  unfold Spec.HexDigit at h
  rw [e1, e2, e3, e4] at h
  omega

theorem zero_not_unit {t : Bytes} {u : Nat} (h : Spec.UnitEscape t u) : 0 ∉ t := by
  obtain ⟨a, b, c, d, w, x, y, z, rfl, ha, hb, hc, hd, -⟩ := h
  intro hm
  simp only [List.mem_cons, List.not_mem_nil, or_false] at hm
  rcases hm with h | h | h | h | h | h
  · exact absurd h (by decide)
  · exact absurd h (by decide)
  · exact zero_not_hex ha h
  · exact zero_not_hex hb h
  · exact zero_not_hex hc h
  · exact zero_not_hex hd h

theorem zero_not_append {a b : Bytes} (ha : 0 ∉ a) (hb : 0 ∉ b) : 0 ∉ a ++ b := by
  rw [List.mem_append]; tauto

theorem zero_not_cons {c : UInt8} {b : Bytes} (hc : 0 ≠ c) (hb : 0 ∉ b) : 0 ∉ c :: b := by
  rw [List.mem_cons]; tauto

theorem zero_not_charText {c : Char} {t : Bytes} (h : Spec.CharText c t) : 0 ∉ t := by
  cases h with
  | plain h hq hb => exact zero_not_encode h
  | short e h =>
    have : ∀ p ∈ Spec.shortEscapes, (0 : UInt8) ∉ ['\\'.toNat.toUInt8, p.2.toNat.toUInt8] := by decide
    exact this _ h
  | unit h => exact zero_not_unit h
  | pair hs ht h1 h2 hc => exact zero_not_append (zero_not_unit hs) (zero_not_unit ht)

theorem zero_not_stringText {s t : Bytes} (h : Spec.StringText s t) : 0 ∉ t := by
  induction h with
  | nil => exact List.not_mem_nil
  | char hc h ih => exact zero_not_append (zero_not_charText hc) ih
  | lone hs hu hn h ih => exact zero_not_append (zero_not_unit hs) ih
  | invalid hb h ih =>
    refine zero_not_cons ?_ ih
    rintro rfl
    exact hb (Char.ofNat 0) ⟨_, rfl⟩

theorem zero_not_digits {s : Bytes} (h : ∀ c ∈ s, Spec.Digit c) : 0 ∉ s := fun hm => absurd (h 0 hm).1 (by decide)

theorem zero_not_numeral {s : Bytes} (h : Spec.Numeral s) : 0 ∉ s := by
  obtain ⟨m, a, b, c, rfl, hm, ha, hb, hc⟩ := h
  refine zero_not_append (zero_not_append (zero_not_append ?_ ?_) ?_) ?_
  · rcases hm with rfl | rfl <;> decide
  · rcases ha with rfl | ⟨h, -⟩
    · decide
    · exact zero_not_digits h.2
  · rcases hb with rfl | ⟨d, rfl, h⟩
    · decide
    · exact zero_not_cons (by decide) (zero_not_digits h.2)
  · rcases hc with rfl | ⟨e, g, d, rfl, he, hg, h⟩
    · decide
    · refine zero_not_cons (by rcases he with rfl | rfl <;> decide) (zero_not_append ?_ (zero_not_digits h.2))
      rcases hg with rfl | rfl | rfl <;> decide

mutual
theorem zero_not_json {n : Nat} {j : Json} {t : Bytes} (h : Spec.JsonText n j t) : 0 ∉ t := by
  match h with
  | .null => decide +kernel
  | .true => decide +kernel
  | .false => decide +kernel
  | .num h => exact zero_not_numeral h
  | .str h => exact zero_not_cons (by decide) (zero_not_append (zero_not_stringText h) (by decide))
  | .noItems hw => exact zero_not_cons (by decide) (zero_not_append (space_no_zero hw) (by decide))
  | .items h => exact zero_not_cons (by decide) (zero_not_append (zero_not_items h) (by decide))
  | .noMembers hw => exact zero_not_cons (by decide) (zero_not_append (space_no_zero hw) (by decide))
  | .members h => exact zero_not_cons (by decide) (zero_not_append (zero_not_members h) (by decide))
theorem zero_not_items {n : Nat} {xs : List Json} {t : Bytes} (h : Spec.ItemsText n xs t) : 0 ∉ t := by
  match h with
  | .one hw h hz => exact zero_not_append (zero_not_append (space_no_zero hw) (zero_not_json h)) (space_no_zero hz)
  | .more hw h hz hs =>
    exact zero_not_append (zero_not_append (zero_not_append (space_no_zero hw) (zero_not_json h)) (space_no_zero hz))
      (zero_not_cons (by decide) (zero_not_items hs))
theorem zero_not_members {n : Nat} {kvs : List (Bytes × Json)} {t : Bytes} (h : Spec.MembersText n kvs t) : 0 ∉ t := by
  match h with
  | .one h => exact zero_not_member h
  | .more h hs => exact zero_not_append (zero_not_member h) (zero_not_cons (by decide) (zero_not_members hs))
theorem zero_not_member {n : Nat} {k : Bytes} {v : Json} {t : Bytes} (h : Spec.MemberText n k v t) : 0 ∉ t := by
  match h with
  | .mk hw hk hx hy hv hz =>
    exact zero_not_append (space_no_zero hw) (zero_not_cons (by decide) (zero_not_append (zero_not_stringText hk) (zero_not_cons (by decide)
      (zero_not_append (space_no_zero hx) (zero_not_cons (by decide) (zero_not_append (zero_not_append (space_no_zero hy) (zero_not_json hv))
        (space_no_zero hz)))))))
end

theorem error_of_not_ok {data : Bytes} {json : Bytes → Except Err File} (h : ∀ f, json data ≠ .ok f) : ∃ e, json data = .error e := by
  cases hj : json data with
  | error e => exact ⟨e, rfl⟩
  | ok f => exact absurd hj (h f)

/-- The decoder of the JSON branch has the properties that C45 and C46 assume of it. -/
theorem C67_rejects_raw (env : JsonEnv) (visits : Nat → List (Bytes × Json) → List (Bytes × Json)) :
    Spec.RejectsRaw (readJson env visits firstJson) := by
  constructor
  · intro c s h1 h2
    refine error_of_not_ok fun f hf => ?_
    obtain ⟨j, w, t, r, hd, hw, ht, hj⟩ := readJson_shape hf
    rw [UInt8.le_iff_toNat_le] at h1 h2
    have hnd : ∀ x, x.toNat < 48 ∨ 57 < x.toNat → c ≠ x := by
      rintro x hx rfl
      have e1 : '0'.toNat.toUInt8.toNat = 48 := rfl
      have e2 : '9'.toNat.toUInt8.toNat = 57 := rfl
      omega
    cases w with
    | cons a w =>
      rcases hw a (.head _) with h | h | h | h <;>
        exact hnd a (by rw [h]; decide) (List.cons.inj hd).1
    | nil =>
      rcases hj with rfl | ⟨kvs, rfl⟩
      · cases ht
        exact hnd 110 (by decide) (List.cons.inj hd).1
      · obtain ⟨s, rfl⟩ := obj_starts ht
        exact hnd 123 (by decide) (List.cons.inj hd).1
  · intro a b s hab
    refine error_of_not_ok fun f hf => ?_
    obtain ⟨j, w, t, r, hd, hw, ht, hj⟩ := readJson_shape hf
    have hz : 0 ∉ w ++ t := zero_not_append (space_no_zero hw) (zero_not_json ht)
    rw [← List.append_assoc] at hd
    generalize hx : w ++ t = x at hd hz
    have hlen : x.length = w.length + t.length := by rw [← hx, List.length_append]
    have hle : x.length ≤ 2 := by
      match x, hd, hz with
      | [], _, _ => exact Nat.zero_le _
      | [_], _, _ => exact (by decide : 1 ≤ 2)
      | [_, _], _, _ => exact Nat.le_refl _
      | _ :: _ :: c :: x, hd, hz =>
        have : 0 = c := (List.cons.inj (List.cons.inj (List.cons.inj hd).2).2).1
        exact absurd (this ▸ .tail _ (.tail _ (.head _))) hz
    rcases hj with rfl | ⟨kvs, rfl⟩
    · cases ht
      have : ("null".toUTF8.data.toList : Bytes).length = 4 := rfl
      omega
    · obtain ⟨u, rfl⟩ := obj_starts ht
      simp only [List.length_cons, List.length_append, List.length_nil] at hlen
      have hw0 : w = [] := List.eq_nil_of_length_eq_zero (by omega)
      have hu0 : u = [] := List.eq_nil_of_length_eq_zero (by omega)
      subst hw0 hu0
      subst hx
      exact hab ⟨(List.cons.inj hd).1, (List.cons.inj (List.cons.inj hd).2).1⟩

/-- C67: raw files with a brace among the first 1024 bytes are rejected by this decoder, too (C45). -/
theorem C67_brace_rejected (env : JsonEnv) (visits : Nat → List (Bytes × Json) → List (Bytes × Json)) (enc : Enc) (isVar : Bool) (f : File)
    (h : Spec.GoodFile enc isVar f) (hs : enc = .packed → Spec.bdw f.header.fields ≠ 31613) (nl : Bool) (hj : Spec.EarlyBrace (f.string nl))
    (p : Plan) : ∃ e, newFileFromReader (readJson env visits firstJson) p (f.string nl) false = .error e :=
  C45_brace_rejected enc isVar f h hs nl hj _ (C67_rejects_raw env visits) p

/-- Case of `C67_rejects_raw`. -/
example (p : Plan) : ∃ e, newFileFromReader (readJson isoEnv backwards firstJson) p (braceFile.string true) false = .error e :=
  C67_brace_rejected isoEnv backwards .character false braceFile braceFile_good (fun h => nomatch h) true (by decide +kernel) p

/-! ### C68 -/

theorem serverEnv_json (jenv : JsonEnv) (visits : Nat → List (Bytes × Json) → List (Bytes × Json)) (errText : Err → Bytes) (plan : Plan) :
    Spec.JsonBranch (serverEnv jenv visits errText plan) := ⟨jenv, visits, firstJson, rfl⟩

/-- The request carries this text as its body. -/
def Spec.BodyIs (r : Request) (text : List UInt8) : Prop := ¬ Spec.Multipart r ∧ r.body = text ∧ r.bodyBroken = false

theorem carries_body {env : ServerEnv} {r : Request} {text : Bytes} {f : File} (hb : Spec.BodyIs r text)
    (h : newFileFromReader env.json env.plan text false = .ok f) : Spec.CarriesFile env r f := by
  obtain ⟨h1, h2, h3⟩ := hb
  exact ⟨r.body, r.bodyBroken, .body h1, by rw [h2, h3]; exact h⟩

/-- C68: the JSON that `/print` answers, sent as the body of another request, is the same file. -/
theorem C68_print (jenv : JsonEnv) (he : Spec.JsonEnvOk jenv) (visits : Nat → List (Bytes × Json) → List (Bytes × Json))
    (hv : Spec.MapOrders visits) (errText : Err → Bytes) (plan : Plan) (r : Request) (hr : Spec.Post r "/print") (hw : Spec.WantsJson r)
    (f : File) (hf : Spec.CarriesFile (serverEnv jenv visits errText plan) r f) (enc : Enc) (hj : Spec.JsonFile enc f)
    (hd : Spec.Detectable enc f) (r' : Request) (hb : Spec.BodyIs r' (Spec.body (serverEnv jenv visits errText plan) r)) :
    Spec.CarriesFile (serverEnv jenv visits errText plan) r' f := by
  rw [(C50_print_body _ r hr f hf).1 hw] at hb
  exact carries_body hb (C65_read jenv he visits hv enc f hj hd plan _ (.head _))

/-- C68: the JSON that `/convert` answers, sent as the body of another request, is the converted file. -/
theorem C68_convert (jenv : JsonEnv) (he : Spec.JsonEnvOk jenv) (visits : Nat → List (Bytes × Json) → List (Bytes × Json))
    (hv : Spec.MapOrders visits) (errText : Err → Bytes) (plan : Plan) (r : Request) (hr : Spec.Post r "/convert") (hw : Spec.WantsJson r)
    (f g k : File) (hf : Spec.CarriesFile (serverEnv jenv visits errText plan) r f) (hne : ¬ (Spec.Says r "generate" "true" ∧ f.bases = []))
    (hg : Spec.WithTrailer (Spec.Says r "generate" "true") f g) (hk : Spec.InType (r.form "type".toUTF8.data.toList) g k)
    (enc : Enc) (hj : Spec.JsonFile enc k) (hd : Spec.Detectable enc k) (r' : Request)
    (hb : Spec.BodyIs r' (Spec.body (serverEnv jenv visits errText plan) r)) :
    Spec.CarriesFile (serverEnv jenv visits errText plan) r' k := by
  rw [(C50_convert_body _ (serverEnv_json jenv visits errText plan) r hr f g k hf hne hg hk).1 hw] at hb
  exact carries_body hb (C65_read jenv he visits hv enc k hj hd plan _ (.tail _ (.head _)))

/-- The output of the command is JSON. -/
def Spec.JsonOutput (c : Command) : Prop := c.format = "json".toUTF8.data.toList ∨ c.format = []

/-- C68: the JSON that the command prints, or writes for a conversion, is the same file for another command. -/
theorem C68_command (jenv : JsonEnv) (he : Spec.JsonEnvOk jenv) (visits : Nat → List (Bytes × Json) → List (Bytes × Json))
    (hv : Spec.MapOrders visits) (errText : Err → Bytes) (plan : Plan) (c : Command) (hc : Spec.JsonOutput c) (text : Bytes) (c' : Command)
    (hi : c'.input = some (text, false)) :
    (∀ f, Spec.CommandReads (commandEnv jenv visits errText plan) c f → runPrint (commandEnv jenv visits errText plan) c = .stdout text →
      ∀ enc, Spec.JsonFile enc f → Spec.Detectable enc f → Spec.CommandReads (commandEnv jenv visits errText plan) c' f) ∧
    (∀ path f g k, Spec.CommandReads (commandEnv jenv visits errText plan) c f →
      Spec.WithTrailer (c.generate = true) f g → Spec.InType c.newType g k →
      runConvert (commandEnv jenv visits errText plan) c = .written path text →
      ∀ enc, Spec.JsonFile enc k → Spec.Detectable enc k → Spec.CommandReads (commandEnv jenv visits errText plan) c' k) := by
  have reads : ∀ {f f'}, Spec.CommandReads (commandEnv jenv visits errText plan) c f →
      Spec.CommandReads (commandEnv jenv visits errText plan) c f' → f = f' := by
    rintro f f' ⟨d, b, h1, h2⟩ ⟨d', b', h3, h4⟩
    rw [h1] at h3
    cases h3
    rw [h2] at h4
    exact Except.ok.inj h4
  have output : ∀ {f}, Spec.OutputOf (commandEnv jenv visits errText plan) c.format c.newline f text →
      text = indentText [32, 32] 0 f.toJson := by
    rintro f (⟨-, h⟩ | ⟨h, -⟩)
    · exact h
    · rcases hc with hc | hc <;> rw [hc] at h <;> exact absurd h (by decide +kernel)
  have back : ∀ {f enc}, text = indentText [32, 32] 0 f.toJson → Spec.JsonFile enc f → Spec.Detectable enc f →
      Spec.CommandReads (commandEnv jenv visits errText plan) c' f := fun ht hj hd =>
    ⟨text, false, hi, C65_read jenv he visits hv _ _ hj hd plan text (ht ▸ .tail _ (.tail _ (.head _)))⟩
  constructor
  · intro f hf hp enc hj hd
    obtain ⟨f', hf', ho⟩ := ((C54_print _ c).1 text).1 hp
    exact back (reads hf hf' ▸ output ho) hj hd
  · intro path f g k hf hg hk hp enc hj hd
    obtain ⟨-, -, f', g', k', hf', -, hg', hk', ho⟩ := (C54_convert _ ⟨jenv, visits, firstJson, rfl⟩ c path text).1 hp
    cases reads hf hf'
    have hgg : g = g' := by
      rcases hg with ⟨h1, t, h2, rfl⟩ | ⟨h1, rfl⟩ <;> rcases hg' with ⟨h3, t', h4, rfl⟩ | ⟨h3, rfl⟩
      · rw [h2] at h4; cases h4; rfl
      · exact absurd h1 h3
      · exact absurd h3 h1
      · rfl
    subst hgg
    have hkk : k = k' := by
      rcases hk with ⟨h1, rfl⟩ | ⟨h1, rfl⟩ | ⟨h1, h1', rfl⟩ <;> rcases hk' with ⟨h2, rfl⟩ | ⟨h2, rfl⟩ | ⟨h2, h2', rfl⟩
      · rfl
      · rw [h1] at h2; exact absurd h2 (by decide +kernel)
      · exact absurd h1 h2
      · rw [h1] at h2; exact absurd h2 (by decide +kernel)
      · rfl
      · exact absurd h1 h2'
      · exact absurd h2 h1
      · exact absurd h2 h1'
      · rfl
    exact back (hkk ▸ output ho) hj hd

/-- The service, with maps read backwards. -/
def textEnv : ServerEnv := serverEnv isoEnv backwards (fun _ => []) slow

/-- Case of `C68_convert`. `/print` and `/convert` to the packed format, of a file sent as JSON, and a second request with the answer. -/
example : ∃ r r', Spec.CarriesFile textEnv r (jsonSample .packed 600 596) ∧ Spec.BodyIs r' (Spec.body textEnv r) ∧
    Spec.CarriesFile textEnv r' (jsonSample .packed 600 596) := by
  have hj : Spec.JsonFile .packed (jsonSample .packed 600 596) :=
    jsonSample_ok _ _ _ (by decide +kernel) (by decide +kernel) (by decide +kernel)
  have hd : Spec.Detectable .packed (jsonSample .packed 600 596) := ⟨by decide +kernel, by decide +kernel⟩
  have hm : ∀ body, ¬ Spec.Multipart (sampleRequest (b! "/print") body [] []) := fun body h => by
    have := (multipart_iff _).1 h
    exact absurd this (by rw [show (sampleRequest (b! "/print") body [] []).contentType = b! "application/octet-stream" from rfl]; decide +kernel)
  have h1 := carries_body (env := textEnv) (r := sampleRequest (b! "/print") (encodeText (jsonSample .packed 600 596).toJson) [] [])
    (text := encodeText (jsonSample .packed 600 596).toJson) (f := jsonSample .packed 600 596) ⟨hm _, rfl, rfl⟩
    (C65_read isoEnv isoEnv_ok backwards backwards_ok .packed _ hj hd slow _ (.head _))
  have hb : ∀ body, Spec.BodyIs (sampleRequest (b! "/print") body [] []) body := fun body => ⟨hm body, rfl, rfl⟩
  exact ⟨_, _, h1, hb _, C68_print isoEnv isoEnv_ok backwards backwards_ok (fun _ => []) slow _ ⟨rfl, rfl⟩ (.inr (by unfold Spec.formatParam; rfl)) _ h1
    .packed hj hd _ (hb _)⟩

end Metro2
