import Verif.Spec.ClientQuery
import Verif.Spec.ClientCall

/-! Property C106: the values of the address of a call arrive. -/

namespace Metro2

/-! ### Bytes -/

theorem byte_fin {P : UInt8 → Prop} (h : ∀ n : Fin 256, P (UInt8.ofNat n)) (c : UInt8) : P c := by
  have := h ⟨c.toNat, c.toNat_lt⟩
  rwa [UInt8.ofNat_toNat] at this

theorem urlByte_hex (c : UInt8) : isUnreserved c = true ∧ c ≠ 37 ∧ c ≠ 43 ∨ c = 32 ∧ isUnreserved c = false ∨
    isUnreserved c = false ∧ c ≠ 32 ∧ unhexByte (upperHex (c / 16)) = some (c / 16) ∧ unhexByte (upperHex (c % 16)) = some (c % 16) ∧
      (c / 16) * 16 + c % 16 = c ∧ upperHex (c / 16) ≠ 37 ∧ upperHex (c % 16) ≠ 37 := by
  revert c
  refine byte_fin ?_
  decide +kernel

theorem unescape_plain {c : UInt8} (h1 : c ≠ 37) (s : Bytes) : queryUnescape (c :: s) = (queryUnescape s).map ((if c = 43 then 32 else c) :: ·) := by
  rw [queryUnescape]
  · rw [if_neg h1]
  · exact fun a b t e _ => absurd e h1

theorem unescape_hex {a b x y : UInt8} (ha : unhexByte a = some x) (hb : unhexByte b = some y) (s : Bytes) :
    queryUnescape (37 :: a :: b :: s) = (queryUnescape s).map ((x * 16 + y) :: ·) := by
  rw [queryUnescape, ha, hb]

theorem unescape_urlByte (c : UInt8) (s : Bytes) : queryUnescape (urlByte c ++ s) = (queryUnescape s).map (c :: ·) := by
  unfold urlByte
  rcases urlByte_hex c with ⟨h1, h2, h3⟩ | ⟨rfl, h1⟩ | ⟨h1, h2, h3, h4, h5, -, -⟩
  · rw [if_pos h1, List.singleton_append, unescape_plain h2, if_neg h3]
  · rw [if_neg (by rw [h1]; decide), if_pos rfl, List.singleton_append, unescape_plain (by decide), if_pos rfl]
  · rw [if_neg (by rw [h1]; decide), if_neg h2, List.cons_append, List.cons_append, List.singleton_append, unescape_hex h3 h4, h5]

theorem unescape_escape (s : Bytes) : queryUnescape (queryEscape s) = some s := by
  induction s with
  | nil => rfl
  | cons c s ih => rw [queryEscape, List.flatMap_cons, unescape_urlByte, ← queryEscape, ih]; rfl

/-- A byte of a key after `queryDescape`. -/
def keyByte (c : UInt8) : Bytes := if c = 91 ∨ c = 93 then [c] else urlByte c

theorem descape_plain {c : UInt8} (h : c ≠ 37) (s : Bytes) : queryDescape (c :: s) = c :: queryDescape s := by
  rw [queryDescape]
  · exact fun t e _ => h e
  · exact fun t e _ => h e

theorem descape_hex {a b : UInt8} (h1 : ¬ (a = 53 ∧ b = 66)) (h2 : ¬ (a = 53 ∧ b = 68)) (s : Bytes) :
    queryDescape (37 :: a :: b :: s) = 37 :: queryDescape (a :: b :: s) := by
  rw [queryDescape]
  · intro t _ e
    injection e with e1 e
    injection e with e2 _
    exact h1 ⟨e1, e2⟩
  · intro t _ e
    injection e with e1 e
    injection e with e2 _
    exact h2 ⟨e1, e2⟩

theorem urlByte_bracket (c : UInt8) : c = 91 ∨ c = 93 ∨ (c ≠ 91 ∧ c ≠ 93 ∧ ¬ (upperHex (c / 16) = 53 ∧ upperHex (c % 16) = 66) ∧
    ¬ (upperHex (c / 16) = 53 ∧ upperHex (c % 16) = 68)) := by
  revert c
  refine byte_fin ?_
  decide +kernel

theorem descape_urlByte (c : UInt8) (s : Bytes) : queryDescape (urlByte c ++ s) = keyByte c ++ queryDescape s := by
  unfold keyByte
  rcases urlByte_bracket c with rfl | rfl | ⟨h1, h2, h3, h4⟩
  · rfl
  · rfl
  · rw [if_neg (by simp [h1, h2])]
    unfold urlByte
    rcases urlByte_hex c with ⟨g1, g2, g3⟩ | ⟨rfl, g1⟩ | ⟨g1, g2, -, -, -, g6, g7⟩
    · rw [if_pos g1, List.singleton_append, descape_plain g2, List.singleton_append]
    · rfl
    · rw [if_neg (by rw [g1]; decide), if_neg g2]
      show queryDescape (37 :: _ :: _ :: s) = 37 :: _ :: _ :: queryDescape s
      rw [descape_hex h3 h4, descape_plain g6, descape_plain g7]

theorem descape_escape (s : Bytes) : queryDescape (queryEscape s) = s.flatMap keyByte := by
  induction s with
  | nil => rfl
  | cons c s ih => rw [queryEscape, List.flatMap_cons, descape_urlByte, ← queryEscape, ih, List.flatMap_cons]

theorem unescape_key (s : Bytes) : queryUnescape (s.flatMap keyByte) = some s := by
  induction s with
  | nil => rfl
  | cons c s ih =>
    rw [List.flatMap_cons, keyByte]
    by_cases h : c = 91 ∨ c = 93
    · rw [if_pos h, List.singleton_append, unescape_plain (by rcases h with rfl | rfl <;> decide), ih,
        if_neg (by rcases h with rfl | rfl <;> decide)]
      rfl
    · rw [if_neg h, unescape_urlByte, ih]; rfl

/-- What is in a written byte. -/
theorem keyByte_mem (c : UInt8) : (∀ x ∈ keyByte c, x ≠ 38 ∧ x ≠ 61 ∧ x ≠ 59 ∧ Spec.QueryByte x) ∧
    ∀ x ∈ urlByte c, x ≠ 38 ∧ x ≠ 61 ∧ x ≠ 59 ∧ Spec.QueryByte x := by
  unfold Spec.QueryByte
  revert c
  refine byte_fin ?_
  decide +kernel

theorem escape_mem {s : Bytes} {x : UInt8} (h : x ∈ queryEscape s) : x ≠ 38 ∧ x ≠ 61 ∧ x ≠ 59 ∧ Spec.QueryByte x := by
  obtain ⟨c, -, hc⟩ := List.mem_flatMap.1 h
  exact (keyByte_mem c).2 x hc

theorem key_mem {s : Bytes} {x : UInt8} (h : x ∈ s.flatMap keyByte) : x ≠ 38 ∧ x ≠ 61 ∧ x ≠ 59 ∧ Spec.QueryByte x := by
  obtain ⟨c, -, hc⟩ := List.mem_flatMap.1 h
  exact (keyByte_mem c).1 x hc

/-! ### Splitting -/

theorem splitByte_none {sep : UInt8} {a : Bytes} (h : sep ∉ a) : splitByte sep a = [a] := by
  induction a with
  | nil => rfl
  | cons c a ih =>
    rw [List.mem_cons, not_or] at h
    rw [splitByte, if_neg (Ne.symm h.1), ih h.2]

theorem splitByte_append {sep : UInt8} {a : Bytes} (h : sep ∉ a) (rest : Bytes) : splitByte sep (a ++ sep :: rest) = a :: splitByte sep rest := by
  induction a with
  | nil => rw [List.nil_append, splitByte, if_pos rfl]
  | cons c a ih =>
    rw [List.mem_cons, not_or] at h
    rw [List.cons_append, splitByte, if_neg (Ne.symm h.1), ih h.2]

theorem splitByte_join {sep : UInt8} {xs : List Bytes} (hne : xs ≠ []) (h : ∀ x ∈ xs, sep ∉ x) : splitByte sep (List.intercalate [sep] xs) = xs := by
  induction xs with
  | nil => exact absurd rfl hne
  | cons x xs ih =>
    cases xs with
    | nil => rw [List.intercalate_singleton]; exact splitByte_none (h x List.mem_cons_self)
    | cons y ys =>
      rw [List.intercalate_cons_cons, List.append_assoc, List.singleton_append, splitByte_append (h x List.mem_cons_self),
        ih (by simp) fun z hz => h z (List.mem_cons_of_mem _ hz)]

/-! ### Order -/

theorem insertKey_perm (k : Bytes) (ks : List Bytes) : (insertKey k ks).Perm (k :: ks) := by
  induction ks with
  | nil => exact .refl _
  | cons x xs ih =>
    rw [insertKey]
    by_cases h : k ≤ x
    · rw [if_pos h]
    · rw [if_neg h]
      exact (ih.cons x).trans (List.Perm.swap k x xs)

theorem sortedKeys_mem (ks : List Bytes) (x : Bytes) : x ∈ sortedKeys ks ↔ x ∈ ks := by
  induction ks with
  | nil => exact Iff.rfl
  | cons k ks ih =>
    rw [sortedKeys, List.mem_cons]
    by_cases h : k ∈ ks
    · rw [if_pos h, ih]
      exact ⟨.inr, fun hx => hx.elim (fun e => e ▸ h) id⟩
    · rw [if_neg h, (insertKey_perm k _).mem_iff, List.mem_cons, ih]

theorem sortedKeys_nodup (ks : List Bytes) : (sortedKeys ks).Nodup := by
  induction ks with
  | nil => exact List.nodup_nil
  | cons k ks ih =>
    rw [sortedKeys]
    by_cases h : k ∈ ks
    · rw [if_pos h]; exact ih
    · rw [if_neg h, (insertKey_perm k _).nodup_iff, List.nodup_cons, sortedKeys_mem]
      exact ⟨h, ih⟩

theorem filter_groups (kvs : List (Bytes × Bytes)) (key : Bytes) (ks : List Bytes) (hd : ks.Nodup) :
    (ks.flatMap fun k => kvs.filter fun kv => kv.1 == k).filter (fun kv => kv.1 = key) =
      if key ∈ ks then kvs.filter fun kv => kv.1 = key else [] := by
  have hsame : ∀ k, (kvs.filter fun kv => kv.1 == k).filter (fun kv => kv.1 = key) = if key = k then kvs.filter fun kv => kv.1 = key else [] := by
    intro k
    rw [List.filter_filter]
    by_cases h : key = k
    · subst h
      rw [if_pos rfl]
      refine List.filter_congr fun kv _ => ?_
      by_cases e : kv.1 = key <;> simp [e]
    · rw [if_neg h]
      refine List.filter_eq_nil_iff.2 fun kv _ => ?_
      by_cases e : kv.1 = key
      · simp [e, h]
      · simp [e]
  induction ks with
  | nil => rfl
  | cons k ks ih =>
    rw [List.nodup_cons] at hd
    rw [List.flatMap_cons, List.filter_append, hsame, ih hd.2]
    by_cases h : key = k
    · subst h
      rw [if_pos rfl, if_neg hd.1, if_pos List.mem_cons_self, List.append_nil]
    · rw [if_neg h, List.nil_append]
      by_cases h' : key ∈ ks
      · rw [if_pos h', if_pos (List.mem_cons_of_mem _ h')]
      · rw [if_neg h', if_neg (by simp [h, h'])]

theorem keyValues_order (kvs : List (Bytes × Bytes)) (key : Bytes) : Spec.keyValues (encodeOrder kvs) key = Spec.keyValues kvs key := by
  unfold Spec.keyValues encodeOrder
  rw [filter_groups kvs key _ (sortedKeys_nodup _)]
  by_cases h : key ∈ sortedKeys (kvs.map Prod.fst)
  · rw [if_pos h]
  · rw [if_neg h]
    rw [sortedKeys_mem] at h
    rw [List.filter_eq_nil_iff.2 fun kv hkv => ?_]
    rw [decide_eq_true_eq]
    exact fun e => h (List.mem_map.2 ⟨kv, hkv, e⟩)

/-! ### The query -/

/-- A pair as it is sent. -/
def sentPart (kv : Bytes × Bytes) : Bytes := kv.1.flatMap keyByte ++ 61 :: queryEscape kv.2

theorem part_clear (kv : Bytes × Bytes) : (38 : UInt8) ∉ queryEscape kv.1 ++ 61 :: queryEscape kv.2 := by
  intro h
  rw [List.mem_append, List.mem_cons] at h
  rcases h with h | h | h
  · exact (escape_mem h).1 rfl
  · exact absurd h (by decide)
  · exact (escape_mem h).1 rfl

theorem sentPart_clear (kv : Bytes × Bytes) : (38 : UInt8) ∉ sentPart kv := by
  intro h
  rw [sentPart, List.mem_append, List.mem_cons] at h
  rcases h with h | h | h
  · exact (key_mem h).1 rfl
  · exact absurd h (by decide)
  · exact (escape_mem h).1 rfl

theorem descapeKey_part (kv : Bytes × Bytes) : descapeKey (queryEscape kv.1 ++ 61 :: queryEscape kv.2) = sentPart kv := by
  rw [descapeKey, splitByte_append fun h => (escape_mem h).2.1 rfl, splitByte_none fun h => (escape_mem h).2.1 rfl]
  show List.intercalate [61] [queryDescape (queryEscape kv.1), queryEscape kv.2] = _
  rw [List.intercalate_cons_cons, List.intercalate_singleton, descape_escape, sentPart, List.append_assoc, List.singleton_append]

theorem rawQuery_eq (kvs : List (Bytes × Bytes)) : rawQuery kvs = List.intercalate [38] ((encodeOrder kvs).map sentPart) := by
  unfold rawQuery encodeValues
  by_cases h : encodeOrder kvs = []
  · rw [h]; rfl
  · rw [splitByte_join (by simpa using h), List.map_map]
    · congr 2
      funext kv
      exact descapeKey_part kv
    · intro x hx
      obtain ⟨kv, -, rfl⟩ := List.mem_map.1 hx
      exact part_clear kv

theorem takeWhile_cut {a : Bytes} (h : (61 : UInt8) ∉ a) (b : Bytes) :
    (a ++ 61 :: b).takeWhile (· != 61) = a ∧ ((a ++ 61 :: b).dropWhile (· != 61)).drop 1 = b := by
  induction a with
  | nil => exact ⟨rfl, rfl⟩
  | cons c a ih =>
    rw [List.mem_cons, not_or] at h
    have hc : (c != 61) = true := bne_iff_ne.2 (Ne.symm h.1)
    obtain ⟨h1, h2⟩ := ih h.2
    refine ⟨?_, ?_⟩
    · rw [List.cons_append, List.takeWhile_cons, if_pos hc, h1]
    · rw [List.cons_append, List.dropWhile_cons, if_pos hc, h2]

theorem parsePart_sent (kv : Bytes × Bytes) : parsePart (sentPart kv) = some kv := by
  have h1 : ¬ ((59 : UInt8) ∈ sentPart kv ∨ sentPart kv = []) := by
    rintro (h | h)
    · rw [sentPart, List.mem_append, List.mem_cons] at h
      rcases h with h | h | h
      · exact (key_mem h).2.2.1 rfl
      · exact absurd h (by decide)
      · exact (escape_mem h).2.2.1 rfl
    · rw [sentPart] at h
      exact absurd (congrArg List.length h) (by simp)
  obtain ⟨h2, h3⟩ := takeWhile_cut (a := kv.1.flatMap keyByte) (fun h => (key_mem h).2.1 rfl) (queryEscape kv.2)
  rw [parsePart, if_neg h1, sentPart, h2, h3, unescape_key, unescape_escape]

theorem parseQuery_raw (kvs : List (Bytes × Bytes)) : parseQuery (rawQuery kvs) = encodeOrder kvs := by
  rw [parseQuery, rawQuery_eq]
  by_cases h : encodeOrder kvs = []
  · rw [h]; rfl
  · rw [splitByte_join (by simpa using h), List.filterMap_map]
    · have : (parsePart ∘ sentPart) = some := funext parsePart_sent
      rw [this, List.filterMap_some]
    · intro x hx
      obtain ⟨kv, -, rfl⟩ := List.mem_map.1 hx
      exact sentPart_clear kv

theorem firstValue_eq (kvs : List (Bytes × Bytes)) (key : Bytes) : firstValue kvs key = match Spec.keyValues kvs key with
    | [] => []
    | v :: _ => v := by
  unfold firstValue Spec.keyValues
  induction kvs with
  | nil => rfl
  | cons kv kvs ih =>
    obtain ⟨k, v⟩ := kv
    rw [List.lookup_cons]
    by_cases h : key = k
    · subst h
      simp
    · rw [List.filter_cons_of_neg (by simpa using Ne.symm h)]
      simp only [beq_eq_false_iff_ne.2 h]
      exact ih

/-! ### Theorems -/

/-- C106. The service receives for each key exactly the values that were added for it, in their order, whatever bytes keys and values have. -/
theorem C106_arrives (kvs : List (Bytes × Bytes)) (key : Bytes) : Spec.keyValues (parseQuery (rawQuery kvs)) key = Spec.keyValues kvs key := by
  rw [parseQuery_raw, keyValues_order]

/-- C106. Nothing is added or lost. -/
theorem C106_pairs (kvs : List (Bytes × Bytes)) (kv : Bytes × Bytes) : kv ∈ parseQuery (rawQuery kvs) ↔ kv ∈ kvs := by
  rw [parseQuery_raw, encodeOrder, List.mem_flatMap]
  constructor
  · rintro ⟨k, -, h⟩
    exact (List.mem_filter.1 h).1
  · exact fun h => ⟨kv.1, (sortedKeys_mem _ _).2 (List.mem_map.2 ⟨kv, h, rfl⟩), List.mem_filter.2 ⟨h, beq_self_eq_true _⟩⟩

/-- C106. The text of the query has only bytes that may be in an address. -/
theorem C106_bytes (kvs : List (Bytes × Bytes)) : ∀ c ∈ rawQuery kvs, Spec.QueryByte c := by
  rw [rawQuery_eq]
  generalize encodeOrder kvs = ps
  have hpart : ∀ kv, ∀ c ∈ sentPart kv, Spec.QueryByte c := by
    intro kv c h
    rw [sentPart, List.mem_append, List.mem_cons] at h
    rcases h with h | rfl | h
    · exact (key_mem h).2.2.2
    · unfold Spec.QueryByte; decide +kernel
    · exact (escape_mem h).2.2.2
  induction ps with
  | nil => exact fun c h => (nomatch h)
  | cons p ps ih =>
    cases ps with
    | nil => rw [List.map_singleton, List.intercalate_singleton]; exact hpart p
    | cons q qs =>
      rw [List.map_cons, List.map_cons, List.intercalate_cons_cons, List.append_assoc]
      intro c h
      rw [List.mem_append, List.mem_append, List.mem_singleton] at h
      rcases h with h | rfl | h
      · exact hpart p c h
      · unfold Spec.QueryByte; decide +kernel
      · exact ih c h

/-- Different values are sent as different texts. -/
theorem rawQuery_injective (kvs kvs' : List (Bytes × Bytes)) (h : rawQuery kvs = rawQuery kvs') (key : Bytes) :
    Spec.keyValues kvs key = Spec.keyValues kvs' key := by
  rw [← C106_arrives kvs, h, C106_arrives]

theorem insertKey_sorted {k : Bytes} {ks : List Bytes} (h : ks.Pairwise (· ≤ ·)) : (insertKey k ks).Pairwise (· ≤ ·) := by
  induction ks with
  | nil => exact List.pairwise_singleton _ _
  | cons x xs ih =>
    rw [List.pairwise_cons] at h
    rw [insertKey]
    by_cases hk : k ≤ x
    · rw [if_pos hk, List.pairwise_cons, List.pairwise_cons]
      refine ⟨fun y hy => ?_, h⟩
      rcases List.mem_cons.1 hy with rfl | hy
      · exact hk
      · exact List.le_trans hk (h.1 y hy)
    · rw [if_neg hk, List.pairwise_cons]
      refine ⟨fun y hy => ?_, ih h.2⟩
      rcases List.mem_cons.1 ((insertKey_perm k xs).mem_iff.1 hy) with rfl | hy
      · exact (List.le_total x y).resolve_right hk
      · exact h.1 y hy

theorem sortedKeys_sorted (ks : List Bytes) : (sortedKeys ks).Pairwise (· ≤ ·) := by
  induction ks with
  | nil => exact List.Pairwise.nil
  | cons k ks ih =>
    rw [sortedKeys]
    by_cases h : k ∈ ks
    · rw [if_pos h]; exact ih
    · rw [if_neg h]; exact insertKey_sorted ih

theorem keyValues_mem (kvs : List (Bytes × Bytes)) (key : Bytes) : Spec.keyValues kvs key ≠ [] ↔ key ∈ kvs.map Prod.fst := by
  unfold Spec.keyValues
  rw [ne_eq, List.map_eq_nil_iff, List.filter_eq_nil_iff, List.mem_map]
  constructor
  · intro h
    refine Decidable.byContradiction fun hn => h fun kv hkv e => hn ⟨kv, hkv, ?_⟩
    rwa [decide_eq_true_eq] at e
  · rintro ⟨kv, h1, h2⟩ h
    exact h kv h1 (decide_eq_true h2)

theorem filter_keyValues (kvs : List (Bytes × Bytes)) (key : Bytes) :
    (kvs.filter fun kv => kv.1 == key) = (Spec.keyValues kvs key).map fun v => (key, v) := by
  unfold Spec.keyValues
  rw [List.map_map]
  induction kvs with
  | nil => rfl
  | cons kv kvs ih =>
    obtain ⟨k, v⟩ := kv
    by_cases h : k = key
    · subst h
      rw [List.filter_cons_of_pos (by simp), List.filter_cons_of_pos (by simp), List.map_cons, ih]; rfl
    · rw [List.filter_cons_of_neg (by simpa using h), List.filter_cons_of_neg (by simpa using h), ih]

/-- C106. The text of the query depends only on the values of each key: the order in which Go visits the keys does not matter. -/
theorem C106_order (kvs kvs' : List (Bytes × Bytes)) : rawQuery kvs = rawQuery kvs' ↔ ∀ key, Spec.keyValues kvs key = Spec.keyValues kvs' key := by
  refine ⟨fun h key => rawQuery_injective kvs kvs' h key, fun h => ?_⟩
  have hk : sortedKeys (kvs.map Prod.fst) = sortedKeys (kvs'.map Prod.fst) := by
    refine List.Perm.eq_of_pairwise (fun a b _ _ h1 h2 => List.le_antisymm h1 h2) (sortedKeys_sorted _) (sortedKeys_sorted _)
      ((List.perm_ext_iff_of_nodup (sortedKeys_nodup _) (sortedKeys_nodup _)).2 fun key => ?_)
    rw [sortedKeys_mem, sortedKeys_mem, ← keyValues_mem, ← keyValues_mem, h]
  rw [rawQuery_eq, rawQuery_eq, encodeOrder, encodeOrder, hk]
  have hf : (fun k => kvs.filter fun kv => kv.1 == k) = fun k => kvs'.filter fun kv => kv.1 == k := by
    funext k
    rw [filter_keyValues, filter_keyValues, h]
  rw [hf]

theorem firstValue_arrives (kvs more : List (Bytes × Bytes)) : firstValue (parseQuery (rawQuery kvs) ++ more) = firstValue (kvs ++ more) := by
  funext key
  have h := C106_arrives kvs key
  rw [firstValue_eq, firstValue_eq]
  unfold Spec.keyValues at h ⊢
  rw [List.filter_append, List.filter_append, List.map_append, List.map_append, h]

/-- C106. A request whose query travels as a text is the one that the other theorems about calls speak of. -/
theorem C106_request (p : PreparedRequest) : p.receivedText = p.received := by
  obtain ⟨method, path, contentType, query, parts⟩ := p
  have h1 := firstValue_arrives query []
  rw [List.append_nil, List.append_nil] at h1
  unfold PreparedRequest.receivedText PreparedRequest.received
  simp only [h1, firstValue_arrives]

/-! ### Witnesses -/

/-- Cases of `C106_pairs`, `C106_bytes` and `C106_arrives`: two values of a key, and bytes that have to be written otherwise. -/
example : rawQuery [(b! "b[0]", b! "x y"), (b! "a", b! "&="), (b! "b[0]", b! "[%]")] = b! "a=%26%3D&b[0]=x+y&b[0]=%5B%25%5D" ∧
    Spec.keyValues (parseQuery (b! "a=%26%3D&b[0]=x+y&b[0]=%5B%25%5D")) (b! "b[0]") = [b! "x y", b! "[%]"] := by
  decide +kernel

/-- What `ParseQuery` leaves out. -/
example : parseQuery (b! "a=1;b=2&&c=%G0&d") = [(b! "d", [])] := by decide +kernel

/-- Case of `C106_request`. -/
example : (prepareRequest [] (convertCall { format := some (b! "a&b=c") })).receivedText.query (b! "format") = b! "a&b=c" := by
  rw [C106_request]
  decide +kernel

/-- Case of `C106_order`: the order of the keys is not written, the order of the values of a key is. -/
example : rawQuery [(b! "b", b! "1"), (b! "a", b! "2"), (b! "b", b! "3")] = rawQuery [(b! "a", b! "2"), (b! "b", b! "1"), (b! "b", b! "3")] ∧
    rawQuery [(b! "b", b! "1"), (b! "b", b! "3")] ≠ rawQuery [(b! "b", b! "3"), (b! "b", b! "1")] := by decide +kernel

end Metro2
