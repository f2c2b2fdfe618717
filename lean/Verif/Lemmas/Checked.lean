import Verif.Model.Checked
import Verif.Spec.Calm
import Verif.Props.Tables
import Verif.Lemmas.Concurrent
import Verif.Lemmas.Word

/-! Lemmas for C123: the checked functions are the total ones. -/

namespace Metro2

theorem repeatText_one {n : Nat} (h : n < 2 ^ 63) (c : UInt8) : repeatText [c] n = some (List.replicate n c) := by
  unfold repeatText
  rw [if_neg (by simp only [List.length_singleton]; omega)]
  simp only [Int.toNat_natCast, Option.some.injEq]
  induction n with
  | zero => rfl
  | succ n ih => rw [List.replicate_succ, List.replicate_succ, List.flatten_cons, ih (by omega)]; rfl

theorem growTo_nat (n : Nat) : growTo n = some () := by
  unfold growTo
  rw [if_neg (by omega)]

theorem valChecked_eq (odd : OddText) {e : Field} {k : Kind} {v : Val} (hl : e.len < 2 ^ 63) (hk : Spec.KindOk e k = true)
    (hv : v.hasKind k = true) : valChecked odd e v = some (valText e v) := by
  unfold valChecked valText
  unfold Spec.KindOk at hk
  cases ht : e.typ <;> rw [ht] at hk <;> simp only at hk ⊢ <;> cases v <;> cases k <;> simp_all [Val.hasKind] <;>
    first
      | (split <;> first | exact repeatText_one hl 48 | rfl)
      | exact ⟨_, growTo_nat _⟩
      | exact growTo_nat _

theorem toStrChecked_eq (odd : OddText) {e : Field} {k : Kind} {v : Val} (hl : e.len < 2 ^ 63) (hk : Spec.KindOk e k = true)
    (hv : v.hasKind k = true) (ho : e.omitted = true → k = .int) : toStrChecked odd k e v = some (toStr e (some v)) := by
  unfold toStrChecked toStr
  by_cases h : e.omitted = true
  · have := ho h
    subst this
    cases v with
    | int i =>
      simp only [h, if_true, true_and, Val.int.injEq]
      split
      · rfl
      · exact valChecked_eq odd hl hk hv
    | str => simp [Val.hasKind] at hv
    | time => simp [Val.hasKind] at hv
  · rw [if_neg h]
    simp only [h, Bool.false_eq_true, false_and, if_false]
    exact valChecked_eq odd hl hk hv

theorem fillChecked_eq {e : Field} (hl : e.len < 2 ^ 63) : fillChecked e = some (fillString e) := by
  unfold fillChecked fillString
  split <;> exact repeatText_one hl _

theorem layouts_short : ∀ t ∈ layouts, (∀ r ∈ t.1, r.2.len < 2 ^ 63) ∧ (t.2.1.map (·.1)).Nodup := by
  decide +kernel

theorem mapM_some {α β : Type} {f : α → Option β} {g : α → β} : ∀ {l : List α}, (∀ a ∈ l, f a = some (g a)) → l.mapM f = some (l.map g)
  | [], _ => rfl
  | a :: l, h => by
    rw [List.mapM_cons, h a List.mem_cons_self, mapM_some (fun b hb => h b (List.mem_cons_of_mem _ hb))]
    rfl

theorem fieldsChecked_eq (odd : OddText) {t : Format × List (F × FieldDecl) × Nat} (ht : t ∈ layouts) {fs : Fields} (hf : fs.Typed t.2.1) :
    fieldsChecked odd t.2.1 t.1 fs = some (fieldsString t.1 fs) := by
  unfold fieldsChecked fieldsString
  rw [mapM_some (g := fun p => toStr p.2 (fs.get p.1))]
  · rfl
  · rintro ⟨f, e⟩ hp
    have hp : (f, e) ∈ t.1 := (toSpecifications_perm t.1).mem_iff.1 hp
    have hl : e.len < 2 ^ 63 := (layouts_short t ht).1 (f, e) hp
    have hn := (layouts_short t ht).2
    unfold rowChecked
    simp only
    cases hd : t.2.1.lookup f with
    | none =>
      have : fs.get f = none := by
        apply Fields.get_none
        rw [hf.names]
        intro hm
        obtain ⟨⟨f', d⟩, hm', rfl⟩ := List.mem_map.1 hm
        rw [lookup_of_mem hn hm'] at hd
        cases hd
      rw [this]
      exact fillChecked_eq hl
    | some d =>
      have hd := lookup_mem hd
      obtain ⟨v, hv, hk⟩ := hf.get hn hd
      obtain ⟨e', he, h1, -, h3⟩ := C10_kinds_match t ht _ hd
      have : e' = e := by
        have := lookup_of_mem (C10_names_unique t ht).1 he
        rw [lookup_of_mem (C10_names_unique t ht).1 hp] at this
        simpa using this.symm
      subst this
      simp only [hv]
      exact toStrChecked_eq odd hl h1 hk (fun h => (h3 h).2)

theorem headerLayout (enc : Enc) : ∃ n, (enc.headerFormat, headerRecordStruct, n) ∈ layouts := by
  cases enc
  · exact ⟨426, by simp [layouts, Enc.headerFormat]⟩
  · exact ⟨366, by simp [layouts, Enc.headerFormat]⟩

theorem baseLayout (enc : Enc) : ∃ n, (enc.baseFormat, baseSegmentStruct, n) ∈ layouts := by
  cases enc
  · exact ⟨426, by simp [layouts, Enc.baseFormat]⟩
  · exact ⟨366, by simp [layouts, Enc.baseFormat]⟩

theorem trailerLayout (enc : Enc) : ∃ n, (enc.trailerFormat, trailerRecordStruct, n) ∈ layouts := by
  cases enc
  · exact ⟨426, by simp [layouts, Enc.trailerFormat]⟩
  · exact ⟨366, by simp [layouts, Enc.trailerFormat]⟩

theorem segmentLayout (k : SegKind) : ∃ n, (k.format, k.struct, n) ∈ layouts := by
  cases k
  · exact ⟨100, by simp [layouts, SegKind.format, SegKind.struct]⟩
  · exact ⟨200, by simp [layouts, SegKind.format, SegKind.struct]⟩
  · exact ⟨34, by simp [layouts, SegKind.format, SegKind.struct]⟩
  · exact ⟨34, by simp [layouts, SegKind.format, SegKind.struct]⟩
  · exact ⟨40, by simp [layouts, SegKind.format, SegKind.struct]⟩
  · exact ⟨30, by simp [layouts, SegKind.format, SegKind.struct]⟩
  · exact ⟨54, by simp [layouts, SegKind.format, SegKind.struct]⟩
  · exact ⟨146, by simp [layouts, SegKind.format, SegKind.struct]⟩

theorem segChecked_eq (odd : OddText) {s : Seg} (h : s.fields.Typed s.kind.struct) : s.checked odd = some s.string := by
  obtain ⟨n, hn⟩ := segmentLayout s.kind
  exact fieldsChecked_eq odd hn h

theorem padChecked_eq {size : Nat} (h : size < 2 ^ 63) (s : Bytes) : padChecked size (some s) = some (padTo size s) := by
  unfold padChecked padTo
  have : (if (size : Int) > 0 then growTo size else some ()) = some () := by split <;> simp [growTo_nat]
  rw [this]
  simp only [Option.bind_some]
  by_cases hs : s.length < size
  · rw [if_pos (by omega)]
    have : (size : Int) - s.length = ((size - s.length : Nat) : Int) := by omega
    rw [this, repeatText_one (by omega)]
    rfl
  · rw [if_neg (by omega)]
    have : size - s.length = 0 := by omega
    rw [this]
    simp

theorem clampedBlockSize_le (i : Int) : clampedBlockSize i < 2 ^ 63 := by
  unfold clampedBlockSize
  split <;> omega

theorem recordChecked_eq (odd : OddText) {r : Record} (h : Spec.AnyValues r) : r.checked odd = some r.string := by
  cases r with
  | header enc fs =>
    obtain ⟨n, hn⟩ := headerLayout enc
    unfold Record.checked Record.string
    have hc : fieldsChecked odd headerRecordStruct enc.headerFormat fs = some (fieldsString enc.headerFormat fs) := fieldsChecked_eq odd hn h
    simp only [hc]
    exact padChecked_eq (clampedBlockSize_le _) _
  | trailer enc fs =>
    obtain ⟨n, hn⟩ := trailerLayout enc
    unfold Record.checked Record.string
    have hc : fieldsChecked odd trailerRecordStruct enc.trailerFormat fs = some (fieldsString enc.trailerFormat fs) := fieldsChecked_eq odd hn h
    simp only [hc]
    exact padChecked_eq (clampedBlockSize_le _) _
  | base enc fs g =>
    obtain ⟨n, hn⟩ := baseLayout enc
    obtain ⟨h1, h2⟩ := h
    have hg : g.list = g.j1 ++ g.j2 ++ [g.k1, g.k2, g.k3, g.k4, g.l1, g.n1].filterMap id := by
      unfold Segs.list
      cases g.k1 <;> cases g.k2 <;> cases g.k3 <;> cases g.k4 <;> cases g.l1 <;> cases g.n1 <;> simp
    unfold Record.checked Record.string
    have hc : fieldsChecked odd baseSegmentStruct enc.baseFormat fs = some (fieldsString enc.baseFormat fs) := fieldsChecked_eq odd hn h1
    simp only [hc]
    simp only [Option.bind_some]
    rw [mapM_some (g := Seg.string) (fun s hs => segChecked_eq odd (h2 s (hg ▸ hs)))]
    exact padChecked_eq (by unfold baseBlockSize; split <;> exact clampedBlockSize_le _) _

/-! ### Files -/

theorem sliceWord_cast {α : Type} {s : List α} {a b : Nat} (h1 : a ≤ b) (h2 : b ≤ s.length) :
    sliceWord s a b = some ((s.drop a).take (b - a)) := by
  unfold sliceWord
  rw [if_pos (by omega)]
  have : ((b : Int) - a).toNat = b - a := by omega
  rw [this]
  rfl

theorem pagesChecked_eq (bases : List Record) (size : Nat) : ∀ (fuel i : Nat),
    pagesChecked bases size fuel i = pagesFrom bases size fuel i := by
  intro fuel
  induction fuel with
  | zero =>
    intro i
    unfold pagesChecked pagesFrom
    by_cases h : i < bases.length
    · rw [if_pos h, if_pos (by omega)]
    · rw [if_neg h, if_neg (by omega)]
  | succ n ih =>
    intro i
    unfold pagesChecked pagesFrom
    by_cases h : i < bases.length
    · rw [if_pos h, if_pos (by omega)]
      have he : (if (i : Int) + size > bases.length then (bases.length : Int) else i + size) =
          ((if bases.length < i + size then bases.length else i + size : Nat) : Int) := by
        by_cases h : bases.length < i + size
        · rw [if_pos h, if_pos (by omega)]
        · rw [if_neg h, if_neg (by omega)]; omega
      simp only [he]
      rw [sliceWord_cast (by split <;> omega) (by split <;> omega)]
      have : (i : Int) + size = ((i + size : Nat) : Int) := by omega
      rw [this, ih]
      rfl
    · rw [if_neg h, if_neg (by omega)]

/-- What a worker stores. -/
def pageOut (nl : Bool) (page : List Record) : Bytes := (page.map fun r => r.string ++ newLine nl).flatten

theorem workers_eq (odd : OddText) (f : File) (nl : Bool) : ∀ (pages : List (List Record)) (done rest : List Bytes), rest.length = pages.length →
    (∀ p ∈ pages, ∀ r ∈ p, Spec.AnyValues r) →
    (pages.zipIdx done.length).foldlM (workerChecked odd f nl) (done ++ rest) = some (done ++ pages.map (pageOut nl)) := by
  intro pages
  induction pages with
  | nil => intro done rest h _; simp at h; subst h; simp
  | cons p ps ih =>
    intro done rest h hv
    cases rest with
    | nil => simp at h
    | cons x rest =>
      rw [List.zipIdx_cons, List.foldlM_cons]
      have hw : workerChecked odd f nl (done ++ x :: rest) (p, done.length) = some ((done ++ [pageOut nl p]) ++ rest) := by
        unfold workerChecked
        have hg : growTo ((p.length : Int) * (f.format.recordLength + (newLine nl).length)) = some () := by
          have : (p.length : Int) * (f.format.recordLength + (newLine nl).length) =
              ((p.length * (f.format.recordLength + (newLine nl).length) : Nat) : Int) := by push_cast; rfl
          rw [this, growTo_nat]
        simp only [hg, Option.bind_some]
        rw [mapM_some (g := Record.string) (fun r hr => recordChecked_eq odd (hv p List.mem_cons_self r hr))]
        simp only [Option.bind_some]
        rw [if_pos (by simp)]
        simp [pageOut, List.map_map, Function.comp_def]
      rw [hw]
      have := ih (done ++ [pageOut nl p]) rest (by simpa using h) (fun q hq => hv q (List.mem_cons_of_mem _ hq))
      simp only [List.length_append, List.length_singleton] at this
      show (List.foldlM (workerChecked odd f nl) ((done ++ [pageOut nl p]) ++ rest) (ps.zipIdx (done.length + 1))) = _
      rw [this]
      simp

theorem pages_total (bases : List Record) (goroutines : Int) :
    ∃ pages, pagesFrom bases (pageSize bases.length goroutines) bases.length 0 = some pages ∧ pages.flatten = bases := by
  by_cases h0 : bases = []
  · subst h0
    exact ⟨[], rfl, rfl⟩
  · have hl : 0 < bases.length := List.length_pos_iff.2 h0
    have hpos : 0 < pageSize bases.length goroutines := by
      unfold pageSize
      simp only
      refine Nat.div_pos ?_ ?_
      · omega
      · split <;> omega
    obtain ⟨pages, h1, h2, -⟩ := pagesFrom_spec (bases := bases) hpos bases.length 0 (by omega)
    exact ⟨pages, h1, by rw [h2]; rfl⟩

theorem fileChecked_eq (odd : OddText) {f : File} (h : Spec.AnyRecords f) (nl : Bool) (goroutines : Int) :
    f.checked odd nl goroutines = some (f.string nl) := by
  obtain ⟨pages, hp, hf⟩ := pages_total f.bases goroutines
  unfold File.checked File.string
  rw [recordChecked_eq odd h.header, recordChecked_eq odd h.trailer]
  simp only [Option.bind_some]
  have hz : pagesChecked f.bases (pageSize f.bases.length goroutines) f.bases.length 0 = some pages := by
    rw [← hp]; exact pagesChecked_eq _ _ _ 0
  rw [hz]
  simp only [Option.bind_some]
  have hw := workers_eq odd f nl pages [] (List.replicate pages.length []) (by simp) (fun p hpp r hr =>
    h.bases r (by rw [← hf]; exact List.mem_flatten.2 ⟨p, hpp, hr⟩))
  simp only [List.nil_append, List.length_nil] at hw
  rw [hw]
  simp only [Option.bind_some]
  have hg : ∀ a b c : Nat, growTo ((a : Int) + b + c) = some () := fun a b c => by
    have : (a : Int) + b + c = ((a + b + c : Nat) : Int) := by omega
    rw [this, growTo_nat]
  rw [hg]
  have : (pages.map (pageOut nl)).flatten = (f.bases.map fun b => b.string ++ newLine nl).flatten := by
    rw [← hf]
    clear hf hp hz hw hg
    induction pages with
    | nil => rfl
    | cons p ps ih => rw [List.map_cons, List.flatten_cons, ih, List.flatten_cons, List.map_append, List.flatten_append]; rfl
  rw [this]
  rfl

end Metro2
