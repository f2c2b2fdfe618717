import Verif.Lemmas.RecordText

/-! Absence of panics in the field loop. -/

namespace Metro2

/-- Errors that stand for a broken table or a run-time panic. -/
def Err.bad : Err → Bool
  | .panic | .invalidValue _ => true
  | _ => false

/-- The result is a value or an ordinary error. -/
def Fine {α : Type} (x : Except Err α) : Prop := ∀ e, x = .error e → e.bad = false

theorem isValidType_fine {e : Field} {f : F} {data : Bytes} {err : Err} (h : isValidType e f data = some err) :
    err.bad = false := by
  have h1 : ∀ err, requiredCheck e f data = some err → err.bad = false := by
    intro err
    unfold requiredCheck
    split
    · cases e.typ <;> simp only [reduceCtorEq, false_imp_iff] <;> split <;> simp <;> rintro rfl <;> rfl
    · simp
  unfold isValidType at h
  split at h
  · next err' herr => cases h; exact h1 _ herr
  · revert h
    cases e.typ <;> simp only [reduceCtorEq, false_imp_iff, isNumeric, isAlphanumeric,
      isUpperAlphanumeric] <;> split <;> simp <;> rintro rfl <;> rfl

theorem timeFromString_fine (layout : List Std) (s : Bytes) : Fine (timeFromString layout s) := by
  intro e h
  unfold timeFromString at h
  split at h
  · cases h
  · split at h
    · cases h
    · cases h; rfl

theorem convertInt64_fine (n : Nat) : Fine (convertInt64 n) := by
  intro e h
  unfold convertInt64 at h
  split at h <;> cases h
  rfl

theorem timeFromPacked_fine {size width : Nat} {layout : List Std} {bin : Bytes} (hs : 2 ≤ size)
    (hb : bin.length = size) : Fine (timeFromPacked size width layout bin) := by
  unfold timeFromPacked
  have h0 : bin[0]? = some bin[0] := List.getElem?_eq_getElem (by omega)
  have h1 : bin[size - 1]? = some bin[size - 1] := List.getElem?_eq_getElem (by omega)
  rw [h0, h1]
  simp only
  split
  · split
    · exact timeFromString_fine _ _
    · next e he => intro e' hc; cases hc; exact convertInt64_fine _ _ he
  · exact timeFromString_fine _ _

theorem map_fine {α β : Type} {x : Except Err α} (f : α → β) (h : Fine x) : Fine (x.map f) := by
  intro e he
  cases x with
  | ok a => cases he
  | error e' => cases he; exact h _ rfl

/-- Reading a slice of the right width never panics. -/
theorem parseValue_fine {e : Field} {data : Bytes} (hw : Spec.WidthOk e = true)
    (hd : data.length = e.len) : Fine (parseValue e data) := by
  unfold parseValue
  unfold Spec.WidthOk at hw
  cases ht : e.typ <;> rw [ht] at hw <;> simp only [decide_eq_true_eq, Bool.false_eq_true] at hw ⊢
  · intro _ h; cases h
  · intro _ h
    split at h <;> cases h
    rfl
  · exact map_fine _ (timeFromString_fine _ _)
  · exact map_fine _ (timeFromString_fine _ _)
  · rw [if_neg (by omega)]; intro _ h; cases h
  · exact map_fine _ (timeFromPacked_fine (by decide) (by omega))
  · exact map_fine _ (timeFromPacked_fine (by decide) (by omega))
  · exact map_fine _ (convertInt64_fine _)

theorem except_map_ok {α β : Type} {x : Except Err α} {f : α → β} {b : β} (h : x.map f = .ok b) :
    ∃ a, b = f a := by
  cases x with
  | ok a => simp only [Except.map, Except.ok.injEq] at h; exact ⟨a, h.symm⟩
  | error e => simp [Except.map] at h

/-- What is read has the Go type of the field. -/
theorem parseValue_kind {e : Field} {data : Bytes} {v : Val} {k : Kind} (hk : Spec.KindOk e k = true)
    (h : parseValue e data = .ok v) : v.hasKind k = true := by
  unfold parseValue at h
  unfold Spec.KindOk at hk
  cases ht : e.typ <;> rw [ht] at h hk <;> simp only [Bool.or_eq_true, decide_eq_true_eq] at h hk
  · cases h; subst hk; rfl
  · cases h; subst hk; rfl
  · split at h
    · cases h; rcases hk with rfl | rfl <;> rfl
    · cases h
  · obtain ⟨a, rfl⟩ := except_map_ok h; subst hk; rfl
  · obtain ⟨a, rfl⟩ := except_map_ok h; subst hk; rfl
  · split at h
    · cases h
    · cases h; rcases hk with rfl | rfl <;> rfl
  · obtain ⟨a, rfl⟩ := except_map_ok h; subst hk; rfl
  · obtain ⟨a, rfl⟩ := except_map_ok h; subst hk; rfl
  · obtain ⟨a, rfl⟩ := except_map_ok h; rcases hk with rfl | rfl <;> rfl

/-- The field loop, on any bytes, any offset and any prior contents: no panic, no struct field
without row, and the result is again a value of the struct. -/
theorem parseLoop_safe {fmt : Format} {pol : BdwPolicy} {rec : Bytes} {off : Nat} {fs : Fields}
    {decl : List (F × FieldDecl)} {bounds : Bool}
    (hl : ∀ d ∈ decl, ∃ e, fmt.lookup d.1 = some e ∧ Spec.WidthOk e = true ∧ Spec.KindOk e d.2.kind = true ∧
      (bounds = false → d.1 ≠ .BlockDescriptorWord ∧ e.start + e.len + off ≤ rec.length))
    (ht : fs.Typed decl) :
    (parseLoop fmt pol bounds rec off fs).1.Typed decl ∧
    ∀ err, (parseLoop fmt pol bounds rec off fs).2 = some err → err.bad = false := by
  induction decl generalizing fs off with
  | nil => cases fs with
    | nil => simp [parseLoop, Fields.Typed]
    | cons => exact ht.elim
  | cons d ds ih => cases fs with
    | nil => exact ht.elim
    | cons p fs =>
      obtain ⟨f, v⟩ := p
      have ht' := ht
      obtain ⟨h1, h2, h3⟩ := ht
      obtain ⟨e, h4, h5, h6, h7⟩ := hl d List.mem_cons_self
      rw [h1] at h4
      have ih0 := ih (off := off) (fs := fs) (fun d hd => hl d (List.mem_cons_of_mem _ hd)) h3
      rw [parseLoop_cons]
      simp only [h4]
      split
      · next hlen =>
        refine ⟨ht', ?_⟩
        rintro err ⟨⟩
        cases bounds with
        | true => rfl
        | false => have := (h7 rfl).2; omega
      · next hlen =>
        have hdl : ((rec.drop (e.start + off)).take e.len).length = e.len := by
          rw [List.length_take, List.length_drop]; omega
        have hnp := parseValue_fine h5 hdl
        generalize (rec.drop (e.start + off)).take e.len = data at *
        split
        · next err herr =>
          refine ⟨ht', ?_⟩
          rintro _ ⟨⟩
          exact isValidType_fine herr
        · split
          · next err herr =>
            refine ⟨ht', ?_⟩
            rintro _ ⟨⟩
            exact hnp _ herr
          · next new hnew =>
            have hk := parseValue_kind h6 hnew
            have hset := setVal_of_kind h2 hk
            have hT : ∀ {r : Fields} {w : Val}, r.Typed ds → w.hasKind d.2.kind = true →
                Fields.Typed (d :: ds) ((f, w) :: r) := fun hr hw => ⟨h1, hw, hr⟩
            split
            · exact ⟨hT ih0.1 h2, ih0.2⟩
            · exact ⟨ht', by rintro _ ⟨⟩; rfl⟩
            · simp only [hset]
              have ih4 := ih (off := off + 4) (fs := fs) (fun d' hd => by
                obtain ⟨e', a1, a2, a3, a4⟩ := hl d' (List.mem_cons_of_mem _ hd)
                refine ⟨e', a1, a2, a3, fun hb => ?_⟩
                exact absurd h1 (h7 hb).1) h3
              exact ⟨hT ih4.1 hk, ih4.2⟩
            · simp only [hset]
              exact ⟨hT ih0.1 hk, ih0.2⟩

end Metro2
