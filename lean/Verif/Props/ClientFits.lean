import Verif.Lemmas.ClientFits
import Verif.Props.ClientExtra
import Verif.Lemmas.TimeText

/-! C116: which documents the client reads. -/

namespace Metro2

open Samples

/-- C116: the client reads exactly the documents whose known members suit their places. The texts that are taken for times are those of C118. -/
theorem C116_file (zone : LocalZone) (j : Json) :
    (∃ c, decodeClientFile zone j = some c) ↔ Spec.SuitsPlace Spec.TakenForTime .file j := by
  have h : Spec.TakenForTime = Timed zone := by
    funext s
    refine propext (Iff.trans ?_ Option.isSome_iff_exists.symm)
    exact exists_congr fun t => (decodeClientTime_iff zone s t).symm
  rw [h, ← decodeClientFile_isSome, Option.isSome_iff_exists]

theorem not_suits_of_spoiled {p : Spec.ClientPlace} {j : Json} (h : Spec.Spoiled Spec.TakenForTime p j) :
    ¬ Spec.SuitsPlace Spec.TakenForTime p j := by
  induction h with
  | field a b hx hs hv hn =>
    intro h
    cases h with
    | fields _ _ h => exact (h _ (List.mem_append_right _ List.mem_cons_self) _ hx hs).elim hv hn
  | scalar p hj =>
    intro h
    rcases hj with ⟨_, rfl⟩ | ⟨_, rfl⟩ | ⟨_, rfl⟩ <;> cases h
  | list xs hq =>
    intro h
    cases h with
    | list _ he _ => exact hq _ he
  | object kvs he =>
    intro h
    cases h <;> cases he
  | member a b hi hs _ ih =>
    intro h
    cases h with
    | fields => cases hi
    | file _ h => exact ih (h _ (List.mem_append_right _ List.mem_cons_self) _ _ hi hs)
    | record _ h => exact ih (h _ (List.mem_append_right _ List.mem_cons_self) _ _ hi hs)
  | element a b he _ ih =>
    intro h
    cases h with
    | list _ he' h =>
      have hq := h _ (List.mem_append_right _ List.mem_cons_self)
      cases he <;> cases he' <;> exact ih hq

/-- C116: one part that does not suit its place is enough: nothing is read. The part may be anywhere inside of the document, and other members of the same
name do not help. -/
theorem C116_spoiled (zone : LocalZone) (j : Json) (h : Spec.Spoiled Spec.TakenForTime .file j) : decodeClientFile zone j = none := by
  cases hd : decodeClientFile zone j with
  | none => rfl
  | some c => exact absurd ((C116_file zone j).1 ⟨c, hd⟩) (not_suits_of_spoiled h)

/-! ### Examples -/

/-- Case of `C116_file`: `shortDoc` is read, so its members suit their places. -/
example (zone : LocalZone) : Spec.SuitsPlace Spec.TakenForTime .file shortDoc :=
  (C116_file zone shortDoc).1 ⟨_, rfl⟩

/-- Case of `C116_spoiled`: an agency identifier that is a text, in a K3 segment of the second data record; a later member of the same name does not help. -/
example (zone : LocalZone) : decodeClientFile zone (.obj [(b! "data", .arr [.null, .obj [(b! "k3", .obj [(b! "agencyIdentifier", .str (b! "1"))])]]),
    (b! "data", .null)]) = none := by
  refine C116_spoiled zone _ (.member [] _ .data (spells_self _) (.element [.null] [] .record (.member [] [] .k3 (spells_self _) ?_)))
  refine .field [] [] (x := (.AgencyIdentifier, ⟨.int, b! "agencyIdentifier", true⟩)) (by decide +kernel) (spelled (by decide +kernel) (by decide +kernel)) (by simp) ?_
  rintro ⟨lit, v, h, _⟩
  cases h

/-- Case of `C116_spoiled`: a data record that is a text. -/
example (zone : LocalZone) : decodeClientFile zone (.obj [(b! "data", .arr [.str (b! "record")])]) = none :=
  C116_spoiled zone _ (.member [] [] .data (spells_self _) (.element [] [] .record (.scalar _ (.inl ⟨_, rfl⟩))))

end Metro2
