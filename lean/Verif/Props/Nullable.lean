import Verif.Spec.Nullable
import Verif.Spec.ClientObjects
import Verif.Props.ClientTime

/-! C120: the `Nullable` types of the client. -/

namespace Metro2

/-! ### Reading -/

/-- C120, the part of reading that holds: a variable that holds nothing takes what the document says, and nothing else is changed. Missing for the full property:
variables that hold something (see `C120_shared`). -/
theorem C120_replaces_partial {α : Type} (T : NullType α) (m : Variables α) (v : Nullable) (h : Spec.InUse m v) (hv : v.value = none) : Spec.Replaces T m v := by
  intro j m' v' hu
  unfold Nullable.unmarshal at hu
  rw [hv] at hu
  by_cases hj : j = .null
  · subst hj
    cases hu
    exact ⟨rfl, ⟨none, .null, .none rfl⟩, fun p a h => h⟩
  · have e : (match (some j : Option Json) with
      | none => (m, (⟨none, true⟩ : Nullable), true)
      | some .null => (m, ⟨none, true⟩, false)
      | some j => ((⟨fun q => if q = m.next then some (T.read T.zero j).1 else m.cells q, m.next + 1⟩ : Variables α), ⟨some m.next, true⟩, (T.read T.zero j).2)) =
        (⟨fun q => if q = m.next then some (T.read T.zero j).1 else m.cells q, m.next + 1⟩, ⟨some m.next, true⟩, (T.read T.zero j).2) := by
      cases j <;> first | rfl | exact absurd rfl hj
    have hu := e.symm.trans hu
    injection hu with h1 h2
    injection h2 with h2 h3
    subst h1 h2
    refine ⟨rfl, ⟨some (T.read T.zero j).1, .value hj (by rw [← h3]), .some rfl (if_pos rfl)⟩, fun p a hp => ?_⟩
    have hne : p ≠ m.next := by
      rintro rfl
      rw [h.below _ (Nat.le_refl _)] at hp
      cases hp
    exact (if_neg hne).trans hp

/-- C120: a variable that holds a value reads a document other than `null` into that value: members that the document leaves out stay as they were, and
everyone who has the address sees the change. No other variable is changed. -/
theorem C120_shared {α : Type} (T : NullType α) (m : Variables α) (v : Nullable) (p : Nat) (a : α) (hv : v.value = some p) (ha : m.cells p = some a)
    (j : Json) (hj : j ≠ .null) :
    ∃ m', v.unmarshal T m (some j) = (m', ⟨some p, true⟩, (T.read a j).2) ∧ m'.cells p = some (T.read a j).1 ∧ ∀ q, q ≠ p → m'.cells q = m.cells q := by
  refine ⟨⟨fun q => if q = p then some (T.read a j).1 else m.cells q, m.next⟩, ?_, if_pos rfl, fun q hq => if_neg hq⟩
  unfold Nullable.unmarshal
  rw [hv]
  cases j <;> first | (exact absurd rfl hj) | (simp only [ha])

/-! ### Writing and reading -/

theorem clientDecls_tags : ∀ x ∈ Spec.clientDecls, TagsOk x.2 := by decide +kernel

theorem unmarshal_set {α : Type} (T : NullType α) (m : Variables α) (v : Nullable) (src : Option Json) : (v.unmarshal T m src).2.1.isSet = true := by
  unfold Nullable.unmarshal
  split
  · rfl
  · rfl
  · split
    · rfl
    · split <;> rfl

theorem record_written (zone : LocalZone) {x : ClientType × List (F × FieldDecl)} (hx : x ∈ Spec.clientDecls) (spoilt : ClientRec → Json → ClientRec)
    {c : ClientRec} (hc : Spec.OwnRec x.2 c) :
    ∃ kvs, encodeClient x.2 c = some (.obj kvs) ∧ (NullType.record zone x.2 spoilt).read (.zero x.2) (.obj kvs) = (Spec.sentRec c, false) := by
  have hs := (encodeClient_iff x.2 c).2 (ownRec_writable (clientDecls_tags x hx).1 hc)
  obtain ⟨j, hj⟩ := Option.isSome_iff_exists.1 hs
  have hd := decodeClient_own zone (clientDecls_tags x hx) hc hj
  obtain ⟨kvs, -, rfl⟩ := Option.map_eq_some_iff.1 hj
  refine ⟨kvs, hj, ?_⟩
  show (match decodeClient zone x.2 (.zero x.2) (.obj kvs) with | some c' => (c', false) | none => (spoilt (.zero x.2) (.obj kvs), true)) = _
  rw [hd]

/-- C120: what a variable of the type of a record or a segment writes is read again as the same exactly if the variable is set. -/
theorem C120_returns_iff (zone : LocalZone) (x : ClientType × List (F × FieldDecl)) (hx : x ∈ Spec.clientDecls) (spoilt : ClientRec → Json → ClientRec)
    (m : Variables ClientRec) (v : Nullable) (h : Spec.InUse m v)
    (ho : ∀ c, Spec.Contents m v (some c) → Spec.OwnRec x.2 c ∧ Spec.TimesRec Spec.WholeZone x.2 c) :
    Spec.Returns (.record zone x.2 spoilt) m v ↔ v.isSet = true := by
  constructor
  · intro hr
    obtain ⟨j, m', v', -, h2, h3, -⟩ := hr fun c hc => by
      obtain ⟨kvs, h1, -⟩ := record_written zone hx spoilt (ho c hc).1
      exact ⟨_, h1⟩
    have := unmarshal_set (.record zone x.2 spoilt) m .initial (some j)
    rw [h2] at this
    exact h3.symm.trans this
  · intro hs _
    cases hv : v.value with
    | none =>
      refine ⟨.null, m, ⟨none, true⟩, ?_, rfl, hs.symm, fun o hc => ?_⟩
      · unfold Nullable.marshal
        rw [hv]
        rfl
      · cases hc with
        | none _ => exact .none rfl
        | some h1 _ => rw [hv] at h1; cases h1
    | some p =>
      obtain ⟨c, hc⟩ := h.held p hv
      obtain ⟨h1, h2⟩ := ho c (.some hv hc)
      obtain ⟨kvs, h3, h4⟩ := record_written zone hx spoilt h1
      rw [(sentRec_iff h1).2 h2] at h4
      refine ⟨.obj kvs, ⟨fun q => if q = m.next then some c else m.cells q, m.next + 1⟩, ⟨some m.next, true⟩, ?_, ?_, hs.symm, fun o hc' => ?_⟩
      · unfold Nullable.marshal
        rw [hv]
        simp only [hc]
        show (match encodeClient x.2 c with | none => NullWritten.error | some j => .document j) = _
        rw [h3]
      · show ((⟨fun q => if q = m.next then some ((NullType.record zone x.2 spoilt).read (.zero x.2) (.obj kvs)).1 else m.cells q, m.next + 1⟩ :
            Variables ClientRec), (⟨some m.next, true⟩ : Nullable), ((NullType.record zone x.2 spoilt).read (.zero x.2) (.obj kvs)).2) = _
        rw [h4]
      · cases hc' with
        | none h1 => rw [hv] at h1; cases h1
        | some h5 h6 =>
          rw [hv] at h5
          cases h5
          rw [hc] at h6
          cases h6
          exact .some rfl (if_pos rfl)

/-- C120: a `NullableTime` that holds nothing panics when it is written. -/
theorem C120_time (zone : LocalZone) (spoilt : Time → Json → Time) (m : Variables Time) (v : Nullable) :
    (∃ j, v.marshal (.time zone spoilt) m = .document j) ↔ ∃ p t, v.value = some p ∧ m.cells p = some t ∧ Spec.Writable t := by
  have hw : ∀ t, (encodeClientTime t).isSome = true ↔ Spec.Writable t := by
    intro t
    rw [show encodeClientTime t = encodeClientVal (.time t) from rfl, encodeClientVal_iff]
    exact ⟨fun h => h t rfl, fun h t' e => by cases e; exact h⟩
  unfold Nullable.marshal
  cases hv : v.value with
  | none => exact ⟨fun ⟨j, h⟩ => (by cases h), fun ⟨p, t, h, _⟩ => (by cases h)⟩
  | some p =>
    cases hc : m.cells p with
    | none =>
      simp only [hc]
      refine ⟨fun ⟨j, h⟩ => (by cases h), fun ⟨q, t, h, h2, _⟩ => ?_⟩
      cases h
      rw [hc] at h2
      cases h2
    | some t =>
      simp only [hc]
      show (∃ j, (match encodeClientTime t with | none => NullWritten.error | some j => .document j) = .document j) ↔ _
      constructor
      · rintro ⟨j, hj⟩
        refine ⟨p, t, rfl, hc, (hw t).1 ?_⟩
        cases he : encodeClientTime t with
        | none => rw [he] at hj; cases hj
        | some j' => rfl
      · rintro ⟨q, t', h1, h2, h3⟩
        cases h1
        rw [hc] at h2
        cases h2
        obtain ⟨j, hj⟩ := Option.isSome_iff_exists.1 ((hw t).2 h3)
        exact ⟨j, by rw [hj]⟩

/-! ### The full statement -/

/-- C120, in full: reading replaces what was held, and what is written is read again as the same. -/
def C120_statement : Prop :=
  ∀ (zone : LocalZone), ∀ x ∈ Spec.clientDecls, ∀ (spoilt : ClientRec → Json → ClientRec) (m : Variables ClientRec) (v : Nullable), Spec.InUse m v →
    (∀ c, Spec.Contents m v (some c) → Spec.OwnRec x.2 c ∧ Spec.TimesRec Spec.WholeZone x.2 c) →
    Spec.Replaces (.record zone x.2 spoilt) m v ∧ Spec.Returns (.record zone x.2 spoilt) m v

/-- The type of K1 segments. -/
def k1Type : ClientType × List (F × FieldDecl) := (accessorsK1Segment, clientK1Segment)

/-- A K1 segment. -/
def heldK1 : ClientRec := ((ClientRec.zero clientK1Segment).put .SegmentIdentifier (some (.str (b! "K1")))).put .OriginalCreditorName (some (.str (b! "OLD BANK")))

/-- A variable at the address 3. -/
def oneVariable : Variables ClientRec := ⟨fun p => if p = 3 then some heldK1 else none, 4⟩

theorem oneVariable_used : Spec.InUse oneVariable (.set (some 3)) :=
  ⟨fun p hp => if_neg (by show ¬ p = 3; have : 4 ≤ p := hp; omega), fun p h => by cases h; exact ⟨heldK1, rfl⟩⟩

/-- A document with another name. -/
def otherName : Json := .obj [(b! "originalCreditorName", .str (b! "NEW BANK"))]

theorem heldK1_own : Spec.OwnRec clientK1Segment heldK1 ∧ Spec.TimesRec Spec.WholeZone clientK1Segment heldK1 := by
  refine ⟨ownRec_put (d := ⟨.str, b! "originalCreditorName", false⟩) (v := .str (b! "OLD BANK")) (ownRec_put (d := ⟨.str, b! "segmentIdentifier", false⟩) (v := .str (b! "K1")) (ownRec_zero _) (by decide +kernel) rfl
    (utf8_of_ascii (show ∀ c ∈ b! "K1", c < 0x80 by decide +kernel))) (by decide +kernel) rfl (utf8_of_ascii (show ∀ c ∈ b! "OLD BANK", c < 0x80 by decide +kernel)), ?_⟩
  intro p hp t ht
  simp only [clientK1Segment, List.mem_cons, List.not_mem_nil, or_false] at hp
  rcases hp with rfl | rfl | rfl <;> cases ht

theorem oneVariable_own (c : ClientRec) (h : Spec.Contents oneVariable (.set (some 3)) (some c)) :
    Spec.OwnRec k1Type.2 c ∧ Spec.TimesRec Spec.WholeZone k1Type.2 c := by
  cases h with
  | some h1 h2 =>
    cases h1
    cases h2
    exact heldK1_own

theorem k1Type_mem : k1Type ∈ Spec.clientDecls := by
  unfold Spec.clientDecls k1Type
  simp

/-- C120, the negation: a K1 segment that a `NullableK1Segment` holds is changed when another one is read. -/
theorem C120_violated : ¬ C120_statement := by
  intro hall
  obtain ⟨h, -⟩ := hall (fun _ _ => none) k1Type k1Type_mem (fun c _ => c) oneVariable (.set (some 3)) oneVariable_used oneVariable_own
  obtain ⟨m', h1, h2, -⟩ := C120_shared (.record (fun _ _ => none) clientK1Segment fun c _ => c) oneVariable (.set (some 3)) 3 heldK1 rfl rfl otherName
    (by intro h; cases h)
  obtain ⟨-, -, h3⟩ := h otherName m' _ h1
  have h4 := h3 3 heldK1 rfl
  rw [h2] at h4
  have h5 := congrFun (Option.some.inj h4) .OriginalCreditorName
  exact absurd h5 (show ¬ some (Val.str (b! "NEW BANK")) = some (.str (b! "OLD BANK")) by decide +kernel)

/-! ### Cases -/

/-- Case of `C120_shared`: the name is replaced, the identifier, which the document does not have, stays. -/
example : ∃ m' c, (Nullable.set (some 3)).unmarshal (.record (fun _ _ => none) clientK1Segment fun c _ => c) oneVariable (some otherName) = (m', .set (some 3), false) ∧
    m'.cells 3 = some c ∧ c .OriginalCreditorName = some (.str (b! "NEW BANK")) ∧ c .SegmentIdentifier = some (.str (b! "K1")) := by
  obtain ⟨m', h1, h2, -⟩ := C120_shared (.record (fun _ _ => none) clientK1Segment fun c _ => c) oneVariable (.set (some 3)) 3 heldK1 rfl rfl otherName
    (by intro h; cases h)
  exact ⟨m', _, h1, h2, by decide +kernel, by decide +kernel⟩

/-- Case of `C120_replaces_partial`: read into a new variable. -/
example : Spec.Replaces (.record (fun _ _ => none) clientK1Segment fun c _ => c) oneVariable .initial :=
  C120_replaces_partial _ _ _ ⟨oneVariable_used.below, fun p h => by cases h⟩ rfl

/-- Case of `C120_returns_iff`: the segment is written and read again; an unset variable is not. -/
example : Spec.Returns (.record (fun _ _ => none) clientK1Segment fun c _ => c) oneVariable (.set (some 3)) ∧
    ¬ Spec.Returns (.record (fun _ _ => none) clientK1Segment fun c _ => c) oneVariable .unset := by
  refine ⟨(C120_returns_iff (fun _ _ => none) k1Type k1Type_mem (fun c _ => c) oneVariable _ oneVariable_used oneVariable_own).2 rfl, fun h => ?_⟩
  have := (C120_returns_iff (fun _ _ => none) k1Type k1Type_mem (fun c _ => c) oneVariable .unset ⟨oneVariable_used.below, fun p h => by cases h⟩
    (fun c h => by cases h with | some h1 _ => cases h1)).1 h
  cases this

/-- Case of `C120_time`: nothing is held. -/
example : ¬ ∃ j, (Nullable.set none).marshal (.time (fun _ _ => none) fun t _ => t) ⟨fun _ => none, 0⟩ = .document j := by
  rw [C120_time]
  rintro ⟨p, t, h, -⟩
  cases h

end Metro2
