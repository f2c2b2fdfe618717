import Verif.Spec.JsonRecord
import Verif.Lemmas.Store
import Verif.Lemmas.JsonOrder
import Verif.Props.JsonState

/-! Property C103, for data records: what a document leaves in the record, accepted or not. -/

namespace Metro2

open Samples Spec

theorem segKindOfName_name (k : SegKind) : segKindOfName k.name = some k := by cases k <;> decide

theorem decodeSeg_some {env : JsonEnv} {k : SegKind} {x : Json} {s : Seg} (h : SegmentFrom env k x s) (g : Segs) :
    decodeSeg env k.name g x = some (g.store s) := by
  obtain ⟨fs, h1, rfl, h2⟩ := h
  simp only [decodeSeg, segKindOfName_name, h1, Segs.add, h2]

theorem decodeSeg_none {env : JsonEnv} {k : SegKind} {x : Json} (h : ∀ s, ¬ SegmentFrom env k x s) (g : Segs) :
    decodeSeg env k.name g x = none := by
  simp only [decodeSeg, segKindOfName_name]
  cases hd : decodeStruct env k.struct (Seg.new k).fields x with
  | none => rfl
  | some fs =>
    simp only [Segs.add]
    cases hv : Seg.validate ⟨k, fs⟩ with
    | some e => rfl
    | none => exact absurd ⟨fs, hd, rfl, hv⟩ (h ⟨k, fs⟩)

theorem segsState_list {env : JsonEnv} {k : SegKind} {xs : List Json} {ss : List Seg} (h : List.Forall₂ (SegmentFrom env k) xs ss) (rest : List Json) :
    ∀ g, segsState env k.name g (xs ++ rest) = segsState env k.name (ss.foldl Segs.store g) rest := by
  induction h with
  | nil => intro g; rfl
  | cons h1 _ ih =>
    intro g
    rw [List.cons_append, segsState, decodeSeg_some h1]
    exact ih _

theorem repeatable_iff (k : SegKind) : Repeatable k ↔ k.name = b! "j1" ∨ k.name = b! "j2" := by cases k <;> decide

/-- One member of the document. -/
theorem baseEntryState_gives {env : JsonEnv} {kv : Bytes × Json} {ss : List Seg} {ok : Bool} (h : MemberGives env kv ss ok) (r : Fields × Segs) :
    ∃ fs, baseEntryState env r kv = ((fs, ss.foldl Segs.store r.2), !ok) ∧
      (kv.1 ≠ b! "base" → fs = r.1) ∧ (kv.1 = b! "base" → (ok = true → FieldsFrom env kv.2 fs) ∧ (ok = false → fs = r.1)) := by
  have hb : ∀ k : SegKind, k.name ≠ b! "base" := by intro k; cases k <;> decide
  cases h with
  | @base x fs h =>
    refine ⟨fs, ?_, fun h => absurd rfl h, fun _ => ⟨fun _ => h, fun h => by cases h⟩⟩
    unfold baseEntryState
    have h : decodeStruct env baseSegmentStruct (zeroFields baseSegmentStruct) x = some fs := h
    rw [if_pos (show ("base".toUTF8.data.toList, x).1 = b! "base" from rfl), h]
    rfl
  | @badBase x h =>
    refine ⟨r.1, ?_, fun h => absurd rfl h, fun _ => ⟨fun h => (by cases h), fun _ => rfl⟩⟩
    unfold baseEntryState
    have h : decodeStruct env baseSegmentStruct (zeroFields baseSegmentStruct) x = none := by
      cases hd : decodeStruct env baseSegmentStruct (zeroFields baseSegmentStruct) x with
      | none => rfl
      | some fs => exact absurd hd (h fs)
    rw [if_pos (show ("base".toUTF8.data.toList, x).1 = b! "base" from rfl), h]
    rfl
  | @skipped key x h1 h2 =>
    refine ⟨r.1, ?_, fun _ => rfl, fun h => absurd h h1⟩
    have h3 : ¬ (key = b! "j1" ∨ key = b! "j2") := by
      rintro (h | h)
      · exact h2 .j1 h
      · exact h2 .j2 h
    have h4 : segKindOfName key = none := by
      cases hk : segKindOfName key with
      | none => rfl
      | some k => exact absurd ((segKindOfName_eq hk).trans (segmentName_eq k).symm) (h2 k)
    unfold baseEntryState
    rw [if_neg (show ¬ (key, x).1 = b! "base" from h1), if_neg (show ¬ ((key, x).1 = b! "j1" ∨ (key, x).1 = b! "j2") from h3)]
    simp only [decodeSeg, h4]
    rfl
  | @one k x s h1 h2 =>
    refine ⟨r.1, ?_, fun _ => rfl, fun h => absurd h (by rw [segmentName_eq]; exact hb k)⟩
    unfold baseEntryState
    rw [segmentName_eq, if_neg (hb k), if_neg (fun h => h1 ((repeatable_iff k).2 h))]
    simp only [decodeSeg_some h2]
    rfl
  | @badOne k x h1 h2 =>
    refine ⟨r.1, ?_, fun _ => rfl, fun h => absurd h (by rw [segmentName_eq]; exact hb k)⟩
    unfold baseEntryState
    rw [segmentName_eq, if_neg (hb k), if_neg (fun h => h1 ((repeatable_iff k).2 h))]
    simp only [decodeSeg_none h2]
    rfl
  | @list k x xs ss h1 h2 h3 =>
    refine ⟨r.1, ?_, fun _ => rfl, fun h => absurd h (by rw [segmentName_eq]; exact hb k)⟩
    unfold baseEntryState
    rw [segmentName_eq, if_neg (hb k), if_pos ((repeatable_iff k).1 h1)]
    simp only [h2]
    have := segsState_list h3 [] r.2
    rw [List.append_nil] at this
    rw [this]
    rfl
  | @badList k x y xs ys ss h1 h2 h3 h4 =>
    refine ⟨r.1, ?_, fun _ => rfl, fun h => absurd h (by rw [segmentName_eq]; exact hb k)⟩
    unfold baseEntryState
    rw [segmentName_eq, if_neg (hb k), if_pos ((repeatable_iff k).1 h1)]
    simp only [h2]
    rw [segsState_list h3, segsState, decodeSeg_none h4]
    rfl
  | @noList k x h1 h2 =>
    refine ⟨r.1, ?_, fun _ => rfl, fun h => absurd h (by rw [segmentName_eq]; exact hb k)⟩
    unfold baseEntryState
    rw [segmentName_eq, if_neg (hb k), if_pos ((repeatable_iff k).1 h1)]
    simp only [h2]
    rfl

/-- Every member of a document gives something: the cases of `MemberGives` are all there are. -/
theorem gives_total (env : JsonEnv) (kv : Bytes × Json) : ∃ ss ok, MemberGives env kv ss ok := by
  obtain ⟨key, x⟩ := kv
  by_cases h1 : key = b! "base"
  · subst h1
    by_cases h : ∃ fs, FieldsFrom env x fs
    · obtain ⟨fs, h⟩ := h
      exact ⟨_, _, .base h⟩
    · exact ⟨_, _, .badBase fun fs hf => h ⟨fs, hf⟩⟩
  · by_cases h2 : ∃ k, key = segmentName k
    · obtain ⟨k, rfl⟩ := h2
      by_cases hr : Repeatable k
      · cases hd : decodeList env x with
        | none => exact ⟨_, _, .noList hr hd⟩
        | some l =>
          have key : ∀ l : List Json, (∃ ss, List.Forall₂ (SegmentFrom env k) l ss) ∨
              ∃ xs y ys ss, l = xs ++ y :: ys ∧ List.Forall₂ (SegmentFrom env k) xs ss ∧ ∀ s, ¬ SegmentFrom env k y s := by
            intro l
            induction l with
            | nil => exact .inl ⟨[], .nil⟩
            | cons z zs ih =>
              by_cases hz : ∃ s, SegmentFrom env k z s
              · obtain ⟨s, hz⟩ := hz
                rcases ih with ⟨ss, h⟩ | ⟨xs, y, ys, ss, rfl, h, hy⟩
                · exact .inl ⟨s :: ss, .cons hz h⟩
                · exact .inr ⟨z :: xs, y, ys, s :: ss, rfl, .cons hz h, hy⟩
              · exact .inr ⟨[], z, zs, [], rfl, .nil, fun s hs => hz ⟨s, hs⟩⟩
          rcases key l with ⟨ss, h⟩ | ⟨xs, y, ys, ss, rfl, h, hy⟩
          · exact ⟨_, _, .list hr hd h⟩
          · exact ⟨_, _, .badList hr hd h hy⟩
      · by_cases h : ∃ s, SegmentFrom env k x s
        · obtain ⟨s, h⟩ := h
          exact ⟨_, _, .one hr h⟩
        · exact ⟨_, _, .badOne hr fun s hs => h ⟨s, hs⟩⟩
    · exact ⟨_, _, .skipped h1 fun k hk => h2 ⟨k, hk⟩⟩

theorem baseEntriesState_gives {env : JsonEnv} {pre : List (Bytes × Json)} {ss : List (List Seg)} {rest : List (Bytes × Json)}
    (h : List.Forall₂ (fun kv s => MemberGives env kv s true) pre ss) : ∀ r : Fields × Segs, ∃ fs,
      baseEntriesState env r (pre ++ rest) = baseEntriesState env (fs, ss.flatten.foldl Segs.store r.2) rest ∧
      ((∀ kv ∈ pre, kv.1 ≠ b! "base") → fs = r.1) ∧
      ∀ l x m, pre = l ++ (b! "base", x) :: m → (∀ kv ∈ m, kv.1 ≠ b! "base") → FieldsFrom env x fs := by
  induction h with
  | nil => intro r; exact ⟨r.1, rfl, fun _ => rfl, fun l x m h => by simp at h⟩
  | @cons kv s pre ss h1 _ ih =>
    intro r
    obtain ⟨fs, e, k1, k2⟩ := baseEntryState_gives h1 r
    obtain ⟨fs', e', k1', k2'⟩ := ih (fs, s.foldl Segs.store r.2)
    refine ⟨fs', ?_, ?_, ?_⟩
    · rw [List.cons_append, baseEntriesState, e]
      simp only [Bool.not_true]
      rw [e', List.flatten_cons, List.foldl_append]
    · intro hno
      rw [k1' fun q hq => hno q (List.mem_cons_of_mem _ hq)]
      exact k1 (hno kv List.mem_cons_self)
    · intro l x m hl hm
      cases l with
      | nil =>
        obtain ⟨rfl, rfl⟩ := List.cons.inj hl
        rw [k1' hm]
        exact (k2 rfl).1 rfl
      | cons q l =>
        exact k2' l x m (List.cons.inj hl).2 hm

/-- C103, data records: exactly what a document leaves in a data record, accepted or not. The members count, in the order in which Go visits them, up to
the first one with an error. They give their segments, in order; of a list with a refused element, the elements before it are kept. J1 and J2 segments that the record had
before are dropped, a K, L or N segment stays until one of its type comes. The fields are those of the member `base`, if it was reached and had no error. -/
theorem C103_record (env : JsonEnv) (visit : List (Bytes × Json) → List (Bytes × Json)) (e : Enc) (fs : Fields) (g : Segs) (j : Json)
    (kvs : List (Bytes × Json)) (hm : decodeMap env j = some kvs) (pre rest : List (Bytes × Json)) (hv : visit kvs = pre ++ rest)
    (ss : List (List Seg)) (hpre : List.Forall₂ (fun kv s => MemberGives env kv s true) pre ss) (last : List Seg)
    (hrest : (rest = [] ∧ last = []) ∨ ∃ kv post, rest = kv :: post ∧ MemberGives env kv last false) :
    ∃ fs' g', (Record.base e fs g).jsonState env visit j = (.base e fs' g', decide (rest ≠ [])) ∧
      ((∀ kv ∈ pre, kv.1 ≠ "base".toUTF8.data.toList) → fs' = fs) ∧
      (∀ l x m, pre = l ++ ("base".toUTF8.data.toList, x) :: m → (∀ kv ∈ m, kv.1 ≠ "base".toUTF8.data.toList) → FieldsFrom env x fs') ∧
      ∀ k, g'.get (segmentName k) =
        if Repeatable k then (ss.flatten ++ last).filter (fun s => decide (s.kind = k))
        else match ((ss.flatten ++ last).filter fun s => decide (s.kind = k)).getLast? with
          | some s => [s]
          | none => g.get (segmentName k) := by
  obtain ⟨fs', e1, h1, h2⟩ := baseEntriesState_gives (rest := rest) hpre (fs, { g with j1 := [], j2 := [] })
  have hend : ∃ fs'', baseEntriesState env (fs', ss.flatten.foldl Segs.store { g with j1 := [], j2 := [] }) rest =
      ((fs'', (ss.flatten ++ last).foldl Segs.store { g with j1 := [], j2 := [] }), decide (rest ≠ [])) ∧ fs'' = fs' := by
    rcases hrest with ⟨rfl, rfl⟩ | ⟨kv, post, rfl, h⟩
    · exact ⟨fs', by rw [List.append_nil]; rfl, rfl⟩
    · obtain ⟨fs'', e2, k1, k2⟩ := baseEntryState_gives h (fs', ss.flatten.foldl Segs.store { g with j1 := [], j2 := [] })
      refine ⟨fs'', ?_, ?_⟩
      · rw [baseEntriesState, e2]
        simp only [Bool.not_false, List.foldl_append]
        rfl
      · by_cases hb : kv.1 = b! "base"
        · exact (k2 hb).2 rfl
        · exact k1 hb
  obtain ⟨fs'', e2, rfl⟩ := hend
  refine ⟨fs'', (ss.flatten ++ last).foldl Segs.store { g with j1 := [], j2 := [] }, ?_, h1, h2, ?_⟩
  · simp only [Record.jsonState, hm, hv]
    rw [e1, e2]
  · intro k
    rw [segmentName_eq, Segs.get_foldl_store]
    generalize (ss.flatten ++ last).filter (fun s => decide (s.kind = k)) = l
    unfold afterStores
    by_cases hk : Repeatable k
    · rw [if_pos hk, if_pos hk]
      have : Segs.get { g with j1 := [], j2 := [] } k.name = [] := by
        rcases (repeatable_iff k).1 hk with h | h <;> rw [h] <;> rfl
      rw [this, List.nil_append]
    · rw [if_neg hk, if_neg hk]
      have : Segs.get { g with j1 := [], j2 := [] } k.name = g.get k.name := by
        cases k
        · exact absurd ((repeatable_iff .j1).2 (.inl rfl)) hk
        · exact absurd ((repeatable_iff .j2).2 (.inr rfl)) hk
        all_goals rfl
      rw [this]
      cases hl : l.getLast? with
      | none => rw [if_pos (List.getLast?_eq_none_iff.1 hl)]
      | some s =>
        rw [if_neg (fun h => by rw [h] at hl; cases hl)]
        rfl

/-- A J1 segment as a JSON object. -/
def j1Members : Json := .obj [(b! "dateBirth", .str (b! "1992-02-29T00:00:00Z")), (b! "ecoaCode", .str (b! "2")), (b! "firstName", .str (b! "ANNE")),
  (b! "segmentIdentifier", .str (b! "J1")), (b! "socialSecurityNumber", .num (b! "123456789")), (b! "surname", .str (b! "BEAUCHAMP"))]

/-- A document with one J1 segment and then something that is none. -/
def halfRecord : List (Bytes × Json) := [(b! "j1", .arr [j1Members, .bool true])]

theorem halfRecord_first : SegmentFrom isoEnv .j1 (j1Members) j1 :=
  ⟨j1.fields, by decide +kernel, rfl, by decide +kernel⟩

theorem halfRecord_second (s : Seg) : ¬ SegmentFrom isoEnv .j1 (.bool true) s := by
  rintro ⟨fs, h, -⟩
  have : (decodeStruct isoEnv SegKind.j1.struct (Seg.new .j1).fields (.bool true)).isNone = true := by decide +kernel
  rw [h] at this
  cases this

/-- Case of `C103_record`. The document is refused. The J1 segment before the error is stored, those that the record had before are gone, and its K1 segment stays. -/
example : ∃ fs g, (Record.base .character (base 600 596) segs).jsonState isoEnv (backwards 0) (.obj halfRecord) = (.base .character fs g, true) ∧
    fs = base 600 596 ∧ g.get (b! "j1") = [j1] ∧ g.get (b! "j2") = [] ∧ g.get (b! "k1") = segs.get (b! "k1") := by
  have hlast : MemberGives isoEnv (b! "j1", .arr [j1Members, .bool true]) [j1] false :=
    .badList (k := .j1) (.inl rfl) (xs := [_]) (ys := []) rfl (.cons halfRecord_first .nil) halfRecord_second
  obtain ⟨fs, g, h1, h2, -, h3⟩ := C103_record isoEnv (backwards 0) .character (base 600 596) segs (.obj halfRecord) halfRecord rfl
    [] halfRecord rfl [] .nil [j1] (.inr ⟨_, [], rfl, hlast⟩)
  have r1 : Repeatable .j1 := (repeatable_iff _).2 (.inl rfl)
  have r2 : Repeatable .j2 := (repeatable_iff _).2 (.inr rfl)
  have r3 : ¬ Repeatable .k1 := fun h => by rcases (repeatable_iff _).1 h with h | h <;> exact absurd h (by decide)
  refine ⟨fs, g, h1, h2 (fun kv h => by cases h), ?_, ?_, ?_⟩
  · have := h3 .j1
    rw [if_pos r1] at this
    exact this.trans (by decide +kernel)
  · have := h3 .j2
    rw [if_pos r2] at this
    exact this.trans (by decide +kernel)
  · have := h3 .k1
    rw [if_neg r3] at this
    exact this

end Metro2
