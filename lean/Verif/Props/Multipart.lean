import Verif.Lemmas.Multipart

/-! Property C111: forms with parts, from the client to the service. -/

namespace Metro2

/-- C111, parts: what is written is read again, with names and contents, exactly if the boundary occurs in no content. -/
theorem C111_parts (b : Bytes) (hb : Spec.Boundary b) (ps : List FormPart) (hp : ∀ p ∈ ps, p.name ≠ [] ∧ p.file ≠ some []) :
    parseForm (b! "multipart/form-data; boundary=" ++ b) (writeParts b true ps ++ multipartEnd b) = some (ps.map Spec.arrived) ↔
      ∀ p ∈ ps, Spec.Clear b p.content := by
  unfold parseForm
  rw [media_boundary hb]
  have h : List.lookup (b! "boundary") [(b! "boundary", b)] = some b := rfl
  simp only [if_true, h]
  refine readParts_write hb ps true _ ?_ hp
  have := writeParts_length b true ps
  simp only [List.length_append]
  omega

theorem pathBase_nonempty (p : Bytes) : pathBase p ≠ [] := by
  unfold pathBase
  split
  · decide
  · split
    · decide
    · rename_i c r h
      have hc : (c == 47) = false := by
        have := List.head?_dropWhile_not (· == (47 : UInt8)) p.reverse
        rw [h] at this
        simpa using this
      rw [List.takeWhile_cons]
      have : (c != 47) = true := by simp [bne, hc]
      rw [this]
      simp

theorem percent_plain {s : Bytes} (h : (13 : UInt8) ∉ s ∧ (10 : UInt8) ∉ s) : Spec.percent s = s := by
  induction s with
  | nil => rfl
  | cons c r ih =>
    simp only [List.mem_cons, not_or] at h
    show (if c = 13 then b! "%0D" else if c = 10 then b! "%0A" else [c]) ++ Spec.percent r = c :: r
    rw [if_neg (Ne.symm h.1.1), if_neg (Ne.symm h.2.1), ih ⟨h.1.2, h.2.2⟩]
    rfl

/-- Keys of a form: different, not empty, and without line breaks. -/
def PlainKeys (form : List (Bytes × Bytes)) : Prop :=
  (form.map (·.1)).Nodup ∧ ∀ k ∈ form.map (·.1), k ≠ [] ∧ (13 : UInt8) ∉ k ∧ (10 : UInt8) ∉ k

theorem formLookup_mem {l : List (Bytes × Bytes)} (hn : (l.map (·.1)).Nodup) {k v : Bytes} (h : (k, v) ∈ l) : l.lookup k = some v := by
  induction l with
  | nil => cases h
  | cons q l ih =>
    rw [List.map_cons, List.nodup_cons] at hn
    rw [List.lookup_cons]
    rcases List.mem_cons.1 h with rfl | h
    · simp
    · rw [beq_eq_false_iff_ne.2, ih hn.2 h]
      rintro rfl
      exact hn.1 (List.mem_map.2 ⟨_, h, rfl⟩)

theorem formLookup_none {l : List (Bytes × Bytes)} {k : Bytes} (h : ∀ v, (k, v) ∉ l) : l.lookup k = none := by
  induction l with
  | nil => rfl
  | cons q l ih =>
    rw [List.lookup_cons, beq_eq_false_iff_ne.2, ih fun v h' => h v (List.mem_cons_of_mem _ h')]
    rintro rfl
    exact h q.2 (List.mem_cons_self ..)

theorem formLookup_perm {l l' : List (Bytes × Bytes)} (hp : l.Perm l') (hn : (l.map (·.1)).Nodup) (k : Bytes) : l.lookup k = l'.lookup k := by
  by_cases h : ∃ v, (k, v) ∈ l
  · obtain ⟨v, h⟩ := h
    rw [formLookup_mem hn h, formLookup_mem ((hp.map _).nodup_iff.1 hn) (hp.mem_iff.1 h)]
  · have h : ∀ v, (k, v) ∉ l := fun v h' => h ⟨v, h'⟩
    rw [formLookup_none h, formLookup_none fun v h' => h v (hp.mem_iff.2 h')]

theorem form_keys : ∀ {c : ClientCall}, (∃ a, c = convertCall a) ∨ (∃ a, c = printCall a) ∨ (∃ f, c = validatorCall f) → PlainKeys c.form := by
  have hall : ∀ l : List Bytes, l.Sublist [b! "format", b! "type", b! "generate", b! "newline"] →
      l.Nodup ∧ ∀ k ∈ l, k ≠ [] ∧ (13 : UInt8) ∉ k ∧ (10 : UInt8) ∉ k := by
    intro l h
    refine ⟨h.nodup (by decide), fun k hk => ?_⟩
    have := h.subset hk
    revert k
    intro k _ hk
    revert hk
    simp only [List.mem_cons, List.not_mem_nil, or_false]
    rintro (rfl | rfl | rfl | rfl) <;> decide
  have hs : ∀ (k : Bytes) (o : Option Bytes), ((strParam k o).map (·.1)).Sublist [k] := by
    intro k o
    cases o with
    | none => exact List.nil_sublist _
    | some v => exact List.Sublist.refl _
  have hbp : ∀ (k : Bytes) (o : Option Bool), ((boolParam k o).map (·.1)).Sublist [k] := by
    intro k o
    cases o with
    | none => exact List.nil_sublist _
    | some v => exact List.Sublist.refl _
  rintro c (⟨a, rfl⟩ | ⟨a, rfl⟩ | ⟨f, rfl⟩)
  · refine hall _ ?_
    simp only [convertCall, List.map_append]
    exact (((hs _ _).append (hs _ _)).append (hbp _ _)).append (hbp _ _)
  · exact hall _ ((hs _ _).trans (by decide))
  · exact hall _ (List.nil_sublist _)

/-- C111, calls: for every call that sends a form with parts, in whatever order the map gives its values, the handlers get from the bytes the request of
Model/ClientCall; so C80 and C81 hold for what is sent. Partial: only if the boundary does not occur in the values and the file (`C111_violated`). -/
theorem C111_call_partial (b : Bytes) (hb : Spec.Boundary b) (c : ClientCall) (hc : (∃ a, c = convertCall a) ∨ (∃ a, c = printCall a) ∨ (∃ f, c = validatorCall f))
    (form : List (Bytes × Bytes)) (hf : form.Perm c.form) (hs : (prepareRequest b c).parts ≠ none)
    (h1 : ∀ kv ∈ c.form, Spec.Clear b kv.2) (h2 : ∀ u, c.file = some u → Spec.Clear b u.content) :
    (c.sent b form).received c.method c.path c.query = (prepareRequest b c).received := by
  obtain ⟨hn, hk⟩ := form_keys hc
  have hkey : ∀ kv ∈ form, kv.1 ≠ [] ∧ (13 : UInt8) ∉ kv.1 ∧ (10 : UInt8) ∉ kv.1 := fun kv h => hk _ (List.mem_map.2 ⟨kv, hf.mem_iff.1 h, rfl⟩)
  have hparse : parseForm (c.sent b form).contentType (c.sent b form).body = some ((c.parts form).map Spec.arrived) := by
    refine (C111_parts b hb (c.parts form) ?_).2 ?_
    · intro p hp
      rcases List.mem_append.1 hp with hp | hp
      · obtain ⟨kv, h, rfl⟩ := List.mem_map.1 hp
        exact ⟨(hkey kv h).1, by simp⟩
      · cases hfile : c.file with
        | none => rw [hfile] at hp; cases hp
        | some u =>
          rw [hfile] at hp
          simp only at hp
          split at hp
          · rw [List.mem_singleton.1 hp]
            exact ⟨(fun h => by cases h), fun h => pathBase_nonempty _ (Option.some.inj h)⟩
          · cases hp
    · intro p hp
      rcases List.mem_append.1 hp with hp | hp
      · obtain ⟨kv, h, rfl⟩ := List.mem_map.1 hp
        exact h1 kv (hf.mem_iff.1 h)
      · cases hfile : c.file with
        | none => rw [hfile] at hp; cases hp
        | some u =>
          rw [hfile] at hp
          simp only at hp
          split at hp
          · rw [List.mem_singleton.1 hp]
            exact h2 u hfile
          · cases hp
  have harr : (form.map fun kv => (⟨kv.1, none, kv.2⟩ : FormPart)).map Spec.arrived = form.map fun kv => ⟨kv.1, none, kv.2⟩ := by
    rw [List.map_map]
    apply List.map_congr_left
    intro kv h
    show (⟨Spec.percent kv.1, none, kv.2⟩ : FormPart) = _
    rw [percent_plain (hkey kv h).2]
  have hvals : ∀ l : List (Bytes × Bytes), (l.map fun kv => (⟨kv.1, none, kv.2⟩ : FormPart)).filterMap (fun p => if p.file.isSome then none else some (p.name, p.content)) = l := by
    intro l
    rw [List.filterMap_map]
    induction l with
    | nil => rfl
    | cons kv l ih => rw [List.filterMap_cons, ih]; rfl
  have hfind : ∀ (l : List (Bytes × Bytes)) (r : List FormPart),
      ((l.map fun kv => (⟨kv.1, none, kv.2⟩ : FormPart)) ++ r).find? (fun p => p.file.isSome && p.name == b! "file") =
        r.find? (fun p => p.file.isSome && p.name == b! "file") := by
    intro l r
    induction l with
    | nil => rfl
    | cons kv l ih => exact ih
  have hfirst : ∀ key, firstValue (c.query ++ form) key = firstValue (c.query ++ c.form) key := by
    intro key
    unfold firstValue
    have : (c.query ++ form).lookup key = (c.query ++ c.form).lookup key := by
      rw [List.lookup_append, List.lookup_append, formLookup_perm hf ((hf.map _).nodup_iff.2 hn)]
    rw [this]
  have hprep : prepareRequest b c = ⟨c.method, c.path, b! "multipart/form-data; boundary=" ++ b, c.query, some (c.form, match c.file with
        | none => none
        | some u => if u.content ≠ [] ∧ u.name ≠ [] then some u.content else none)⟩ := by
    unfold prepareRequest at hs ⊢
    simp only at hs ⊢
    split
    · rfl
    · rename_i h
      rw [if_neg h] at hs
      exact absurd rfl hs
  rw [hprep]
  unfold SentForm.received PreparedRequest.received
  rw [hparse]
  unfold ClientCall.parts
  rw [List.map_append, harr]
  simp only [List.filterMap_append, hvals, hfind]
  cases hfile : c.file with
  | none =>
    simp only [List.map_nil, List.find?_nil, Option.map_none, List.filterMap_nil, List.append_nil]
    rw [show firstValue (c.query ++ form) = firstValue (c.query ++ c.form) from funext hfirst]
    rfl
  | some u =>
    simp only
    by_cases hu : u.content ≠ [] ∧ u.name ≠ []
    · rw [if_pos hu, if_pos hu]
      show Request.mk _ _ _ _ _ _ _ (firstValue (c.query ++ (form ++ []))) = _
      rw [List.append_nil, show firstValue (c.query ++ form) = firstValue (c.query ++ c.form) from funext hfirst]
      rfl
    · rw [if_neg hu, if_neg hu]
      show Request.mk _ _ _ _ _ _ _ (firstValue (c.query ++ (form ++ []))) = _
      rw [List.append_nil, show firstValue (c.query ++ form) = firstValue (c.query ++ c.form) from funext hfirst]
      rfl

/-- C111, length: the header `Content-Length` that the client sets is too small by the length of the boundary and eight. (`net/http` does not send it, but the
length of the body.) -/
theorem C111_length (b : Bytes) (c : ClientCall) (form : List (Bytes × Bytes)) : (c.sent b form).contentLength + (b.length + 8) = (c.sent b form).body.length := by
  simp only [ClientCall.sent, multipartEnd, dashBoundary, crlf, List.length_append, List.length_cons, List.length_nil]
  omega

/-- C111, the full statement: every form arrives. -/
def C111_statement : Prop :=
  ∀ (b : Bytes) (ps : List FormPart), Spec.Boundary b → (∀ p ∈ ps, p.name ≠ [] ∧ p.file ≠ some []) →
    parseForm (b! "multipart/form-data; boundary=" ++ b) (writeParts b true ps ++ multipartEnd b) = some (ps.map Spec.arrived)

/-- C111, the negation: nothing keeps a boundary, which is drawn without looking at the file, from occurring in it. -/
theorem C111_violated : ¬ C111_statement := by
  intro h
  have h1 := h (b! "0") [⟨b! "file", some (b! "f"), b! "a\r\n--0\r\nb"⟩] ⟨by decide, by decide⟩ (by decide)
  have h2 := (C111_parts (b! "0") ⟨by decide, by decide⟩ _ (by decide)).1 h1 _ (List.mem_cons_self ..)
  exact absurd (h2 [13, 10, 97] (b! "\r\nb") rfl) (by unfold Spec.NoEnd; decide)

/-! ### Examples -/

theorem clear_short {b content : Bytes} (h : content.length < b.length + 2) : Spec.Clear b content := by
  intro u v e
  have := congrArg List.length e
  simp only [List.length_append, List.length_cons, List.length_nil] at this
  omega

namespace Samples

/-- A boundary. -/
def boundary : Bytes := b! "0123456789abcdef0123456789abcdef0123456789abcdef0123456789ab"

/-- A call of `Convert` with a format and a file whose name has a path. -/
def convertArgs : ConvertArgs := { format2 := some (b! "metro"), generate := some true, file := some ⟨b! "/tmp/a \"b\".dat", b! "--0426HEADER", false⟩ }

theorem boundary_ok : Spec.Boundary boundary := ⟨by decide, by decide⟩

end Samples

/-- Case of `C111_parts`: a name with quotes and a line break, an empty content, and a content that begins like a boundary. -/
example : parseForm (b! "multipart/form-data; boundary=" ++ Samples.boundary)
    (writeParts Samples.boundary true [⟨b! "a\"\n", none, []⟩, ⟨b! "file", some (b! "c\\d"), b! "--0123456789"⟩] ++ multipartEnd Samples.boundary) =
    some [⟨b! "a\"%0A", none, []⟩, ⟨b! "file", some (b! "c\\d"), b! "--0123456789"⟩] :=
  (C111_parts Samples.boundary Samples.boundary_ok _ (by decide)).2 (by
    intro p hp
    apply clear_short
    rcases List.mem_cons.1 hp with rfl | hp
    · decide
    · rw [List.mem_singleton.1 hp]
      decide)

/-- Case of `C111_call_partial`: the values in another order. -/
example : ((convertCall Samples.convertArgs).sent Samples.boundary [(b! "generate", b! "true"), (b! "format", b! "metro")]).received (b! "POST") (b! "/convert") [] =
    (prepareRequest Samples.boundary (convertCall Samples.convertArgs)).received :=
  C111_call_partial Samples.boundary Samples.boundary_ok (convertCall Samples.convertArgs) (.inl ⟨_, rfl⟩) _ (List.Perm.swap _ _ _) (by decide)
    (by
      intro kv hkv
      apply clear_short
      have hkv : kv ∈ [(b! "format", b! "metro"), (b! "generate", b! "true")] := hkv
      rcases List.mem_cons.1 hkv with rfl | h
      · decide
      · rw [List.mem_singleton.1 h]
        decide)
    (by
      intro u hu
      apply clear_short
      cases hu
      decide)

/-- Case of `C111_length`: 68 bytes are missing. -/
example : ((convertCall Samples.convertArgs).sent Samples.boundary []).contentLength + (Samples.boundary.length + 8) =
    ((convertCall Samples.convertArgs).sent Samples.boundary []).body.length :=
  C111_length Samples.boundary (convertCall Samples.convertArgs) []

end Metro2
