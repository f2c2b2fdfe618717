import Verif.Model.ClientHeaders
import Verif.Spec.ClientHeaders

/-! Names of headers and their values. -/

namespace Metro2

/-- One byte of the canonical form. -/
def canonByte (upper : Bool) (c : UInt8) : UInt8 :=
  if upper ∧ 97 ≤ c ∧ c ≤ 122 then c - 32 else if ¬ upper ∧ 65 ≤ c ∧ c ≤ 90 then c + 32 else c

theorem canonicalFrom_cons (u : Bool) (c : UInt8) (s : Bytes) : canonicalFrom u (c :: s) = canonByte u c :: canonicalFrom (canonByte u c == 45) s := rfl

theorem canonByte_all (u : Bool) (c : UInt8) : Spec.lowerByte (canonByte u c) = Spec.lowerByte c ∧ canonByte u (Spec.lowerByte c) = canonByte u c ∧
    headerByte (canonByte u c) = headerByte c ∧ (headerByte c = true ↔ Spec.TokenByte c) := by
  have h : ∀ n : Fin 256, (fun c : UInt8 => ∀ u : Bool, Spec.lowerByte (canonByte u c) = Spec.lowerByte c ∧
    canonByte u (Spec.lowerByte c) = canonByte u c ∧ headerByte (canonByte u c) = headerByte c ∧
    (headerByte c = true ↔ Spec.TokenByte c)) ⟨⟨n⟩⟩ := by decide +kernel
  exact h c.toFin u

theorem lower_canonicalFrom (u : Bool) (s : Bytes) : Spec.lower (canonicalFrom u s) = Spec.lower s := by
  induction s generalizing u with
  | nil => rfl
  | cons c s ih =>
    rw [canonicalFrom_cons]
    show Spec.lowerByte (canonByte u c) :: Spec.lower (canonicalFrom _ s) = Spec.lowerByte c :: Spec.lower s
    rw [ih, (canonByte_all u c).1]

theorem canonicalFrom_lower (u : Bool) (s : Bytes) : canonicalFrom u (Spec.lower s) = canonicalFrom u s := by
  induction s generalizing u with
  | nil => rfl
  | cons c s ih =>
    show canonicalFrom u (Spec.lowerByte c :: Spec.lower s) = canonicalFrom u (c :: s)
    rw [canonicalFrom_cons, canonicalFrom_cons, (canonByte_all u c).2.1, ih]

theorem canonicalFrom_eq_iff (u : Bool) (a b : Bytes) : canonicalFrom u a = canonicalFrom u b ↔ Spec.lower a = Spec.lower b := by
  constructor
  · intro h
    rw [← lower_canonicalFrom u a, h, lower_canonicalFrom]
  · intro h
    rw [← canonicalFrom_lower u a, h, canonicalFrom_lower]

theorem all_headerByte_iff (s : Bytes) : s.all headerByte = true ↔ Spec.Token s := by
  rw [List.all_eq_true]
  exact ⟨fun h c hc => (canonByte_all true c).2.2.2.1 (h c hc), fun h c hc => (canonByte_all true c).2.2.2.2 (h c hc)⟩

theorem all_headerByte_canonical (u : Bool) (s : Bytes) : (canonicalFrom u s).all headerByte = s.all headerByte := by
  induction s generalizing u with
  | nil => rfl
  | cons c s ih => rw [canonicalFrom_cons, List.all_cons, List.all_cons, ih, (canonByte_all u c).2.2.1]

theorem canonicalHeader_eq_iff (a b : Bytes) : canonicalHeader a = canonicalHeader b ↔ Spec.SameHeader a b := by
  unfold canonicalHeader Spec.SameHeader
  by_cases ha : a.all headerByte = true <;> by_cases hb : b.all headerByte = true
  · rw [if_pos ha, if_pos hb, canonicalFrom_eq_iff]
    exact ⟨fun h => .inr ⟨(all_headerByte_iff a).1 ha, (all_headerByte_iff b).1 hb, h⟩, fun h => h.elim (fun h => by rw [h]) (·.2.2)⟩
  · rw [if_pos ha, if_neg hb]
    refine ⟨fun h => absurd ((all_headerByte_canonical true a).trans ha) (by rw [h]; exact hb), fun h => ?_⟩
    rcases h with h | h
    · exact absurd (h ▸ ha) hb
    · exact absurd ((all_headerByte_iff b).2 h.2.1) hb
  · rw [if_neg ha, if_pos hb]
    refine ⟨fun h => absurd ((all_headerByte_canonical true b).trans hb) (by rw [← h]; exact ha), fun h => ?_⟩
    rcases h with h | h
    · exact absurd (h ▸ hb) ha
    · exact absurd ((all_headerByte_iff a).2 h.1) ha
  · rw [if_neg ha, if_neg hb]
    exact ⟨.inl, fun h => h.elim id fun h => absurd ((all_headerByte_iff a).2 h.1) ha⟩

theorem headerValues_add (k v : Bytes) (h : List (Bytes × List Bytes)) (key : Bytes) :
    headerValues (headerAdd k v h) key = headerValues h key ++ if canonicalHeader k = canonicalHeader key then [v] else [] := by
  unfold headerValues
  induction h with
  | nil =>
    by_cases hk : canonicalHeader k = canonicalHeader key
    · simp [headerAdd, hk]
    · simp [headerAdd, hk, List.lookup_cons, beq_eq_false_iff_ne.2 (Ne.symm hk)]
  | cons x h ih =>
    obtain ⟨y, vs⟩ := x
    unfold headerAdd
    by_cases hy : y = canonicalHeader k
    · rw [if_pos hy]
      by_cases hk : canonicalHeader k = canonicalHeader key
      · simp [hy, hk]
      · have : (canonicalHeader key == y) = false := beq_eq_false_iff_ne.2 fun e => hk (hy ▸ e.symm)
        simp [List.lookup_cons, this, hk]
    · rw [if_neg hy]
      by_cases hk : canonicalHeader key = y
      · have : ¬ canonicalHeader k = canonicalHeader key := fun e => hy (by rw [e, hk])
        simp [List.lookup_cons, hk, this]
        simp [← hk, this]
      · have hb : (canonicalHeader key == y) = false := beq_eq_false_iff_ne.2 hk
        simp only [List.lookup_cons, hb]
        exact ih

theorem headersOf_cons (kv : Bytes × Bytes) (h : List (Bytes × Bytes)) (key : Bytes) :
    Spec.headersOf (kv :: h) key = (if canonicalHeader kv.1 = canonicalHeader key then [kv.2] else []) ++ Spec.headersOf h key := by
  unfold Spec.headersOf
  by_cases hk : canonicalHeader kv.1 = canonicalHeader key
  · rw [if_pos hk, List.filter_cons_of_pos (by simpa using (canonicalHeader_eq_iff _ _).1 hk)]
    rfl
  · rw [if_neg hk, List.filter_cons_of_neg (by simpa using fun h => hk ((canonicalHeader_eq_iff _ _).2 h))]
    rfl

theorem headersOf_append (a b : List (Bytes × Bytes)) (key : Bytes) : Spec.headersOf (a ++ b) key = Spec.headersOf a key ++ Spec.headersOf b key := by
  simp [Spec.headersOf]

theorem headerValues_fold (ds : List (Bytes × Bytes)) (h : List (Bytes × List Bytes)) (key : Bytes) :
    headerValues (ds.foldl (fun h kv => headerAdd kv.1 kv.2 h) h) key = headerValues h key ++ Spec.headersOf ds key := by
  induction ds generalizing h with
  | nil => simp [Spec.headersOf]
  | cons kv ds ih => rw [List.foldl_cons, ih, headerValues_add, headersOf_cons, List.append_assoc]

theorem headerValues_params {params : List (Bytes × Bytes)} (hc : ∀ kv ∈ params, canonicalHeader kv.1 = kv.1)
    (hn : (params.map (·.1)).Nodup) (key : Bytes) : headerValues (params.map fun kv => (kv.1, [kv.2])) key = Spec.headersOf params key := by
  unfold headerValues
  induction params with
  | nil => rfl
  | cons kv ps ih =>
    rw [headersOf_cons, hc kv List.mem_cons_self]
    rw [List.map_cons, List.nodup_cons] at hn
    have ih := ih (fun x hx => hc x (List.mem_cons_of_mem _ hx)) hn.2
    by_cases hk : kv.1 = canonicalHeader key
    · have h0 : Spec.headersOf ps key = [] := by
        unfold Spec.headersOf
        rw [List.filter_eq_nil_iff.2, List.map_nil]
        intro x hx hs
        have := (canonicalHeader_eq_iff _ _).2 (of_decide_eq_true hs)
        rw [hc x (List.mem_cons_of_mem _ hx)] at this
        exact hn.1 (List.mem_map.2 ⟨x, hx, by rw [this, hk]⟩)
      simp [hk, h0]
    · have hb : (canonicalHeader key == kv.1) = false := beq_eq_false_iff_ne.2 (Ne.symm hk)
      simp only [List.map_cons, List.lookup_cons, hb, if_neg hk, List.nil_append]
      exact ih

theorem headerParams_ok (ct ac : Bytes) (n : Option Nat) : (∀ kv ∈ headerParams ct ac n, canonicalHeader kv.1 = kv.1) ∧
    ((headerParams ct ac n).map (·.1)).Nodup := by
  unfold headerParams
  by_cases h1 : ct = [] <;> by_cases h2 : ac = [] <;> cases n <;> simp [h1, h2] <;> decide

theorem headerValues_request (cfg : HeaderConfiguration) (ct ac : Bytes) (n : Option Nat) (key : Bytes) :
    headerValues (requestHeaders cfg (headerParams ct ac n)) key =
      Spec.headersOf (headerParams ct ac n ++ [(b! "User-Agent", cfg.userAgent)] ++ cfg.defaultHeader) key := by
  unfold requestHeaders
  rw [headerValues_fold, headerValues_add, headerValues_params (headerParams_ok ct ac n).1 (headerParams_ok ct ac n).2, headersOf_append,
    headersOf_append, headersOf_cons]
  simp [Spec.headersOf]

end Metro2
