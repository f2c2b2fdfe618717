import Verif.Model.Word
import Verif.Spec.Word
import Verif.Lemmas.Totals
import Verif.Lemmas.ParseInt
import Verif.Lemmas.Table
import Verif.Lemmas.NoPanic
import Verif.Lemmas.FileParse

/-! Arithmetic on words gives what arithmetic on integers gives. -/

namespace Metro2

theorem wrap_word {i : Int} (h : Spec.IsWord i) : wrap i = i := by unfold wrap; unfold Spec.IsWord at h; omega

theorem wrap_isWord (i : Int) : Spec.IsWord (wrap i) := by unfold wrap Spec.IsWord; omega

/-! ### Totals -/

/-- All numbers lie between 0 and a bound. -/
def Small (n : Nat) (info : Fields) : Prop := ∀ f, 0 ≤ info.int f ∧ info.int f ≤ n

/-- A step that counts no counter up more than `k` times, with words and with integers. -/
def Sim (k : Nat) (a b : Fields → Fields) : Prop :=
  ∀ n info, n + k < 2 ^ 63 → Small n info → a info = b info ∧ Small (n + k) (b info)

theorem Sim.id : Sim 0 (fun i => i) (fun i => i) := fun _ _ _ h => ⟨rfl, h⟩

theorem Sim.weaken {k l : Nat} {a b : Fields → Fields} (h : Sim k a b) (hkl : k ≤ l) : Sim l a b := by
  intro n info hn hs
  obtain ⟨h1, h2⟩ := h n info (by omega) hs
  exact ⟨h1, fun f => ⟨(h2 f).1, by have := (h2 f).2; omega⟩⟩

theorem Sim.comp {k l : Nat} {a b c d : Fields → Fields} (h : Sim k a b) (h' : Sim l c d) : Sim (k + l) (fun i => c (a i)) (fun i => d (b i)) := by
  intro n info hn hs
  obtain ⟨h1, h2⟩ := h n info (by omega) hs
  obtain ⟨h3, h4⟩ := h' (n + k) (b info) (by omega) h2
  refine ⟨by show c (a info) = _; rw [h1, h3], fun f => ⟨(h4 f).1, by show (d (b info)).int f ≤ _; have := (h4 f).2; omega⟩⟩

theorem Sim.ite {k : Nat} {a b c d : Fields → Fields} (p : Prop) [Decidable p] (h : Sim k a b) (h' : Sim k c d) :
    Sim k (fun i => if p then a i else c i) (fun i => if p then b i else d i) := by
  by_cases hp : p
  · simpa only [hp, if_true] using h
  · simpa only [hp, if_false] using h'

theorem int_set_le (fs : Fields) (f g : F) (v : Int) : (fs.set f (.int v)).int g = fs.int g ∨ (g = f ∧ (fs.set f (.int v)).int g = v) := by
  unfold Fields.int
  rw [Fields.get_set]
  by_cases h : g = f
  · subst h
    rw [if_pos rfl]
    cases fs.get g with
    | none => exact .inl rfl
    | some w => exact .inr ⟨rfl, rfl⟩
  · rw [if_neg h]; exact .inl rfl

theorem Sim.incr (f : F) : Sim 1 (fun i => i.incr64 f) (fun i => i.incr f) := by
  intro n info hn hs
  have hf := hs f
  have hw : wrap (info.int f + 1) = info.int f + 1 := wrap_word ⟨by omega, by omega⟩
  refine ⟨by show info.incr64 f = info.incr f; unfold Fields.incr64 Fields.incr; rw [hw], fun g => ?_⟩
  have hg := hs g
  show 0 ≤ (info.incr f).int g ∧ (info.incr f).int g ≤ ((n + 1 : Nat) : Int)
  unfold Fields.incr
  rcases int_set_le info f g (info.int f + 1) with h | ⟨-, h⟩ <;> rw [h] <;> constructor <;> omega

theorem Sim.incrIf (c : Bool) (f : F) : Sim 1 (fun i => i.incrIf64 c f) (fun i => i.incrIf c f) := by
  cases c
  · exact Sim.id.weaken (by omega)
  · exact Sim.incr f

theorem Sim.foldl {k : Nat} {step64 step : Fields → Seg → Fields} (h : ∀ s, Sim k (fun i => step64 i s) (fun i => step i s)) (l : List Seg) :
    Sim (k * l.length) (fun i => l.foldl step64 i) (fun i => l.foldl step i) := by
  induction l with
  | nil => exact Sim.id
  | cons s l ih =>
    refine ((h s).comp ih).weaken ?_
    rw [List.length_cons, Nat.mul_succ]; omega

theorem sim_status (s : Bytes) : Sim 1 (statisticAccountStatus64 s) (statisticAccountStatus s) := by
  unfold statisticAccountStatus64 statisticAccountStatus
  refine Sim.ite _ (Sim.incr _) ?_
  refine Sim.ite _ (Sim.incr _) ?_
  refine Sim.ite _ (Sim.incr _) ?_
  refine Sim.ite _ (Sim.incr _) ?_
  refine Sim.ite _ (Sim.incr _) ?_
  refine Sim.ite _ (Sim.incr _) ?_
  refine Sim.ite _ (Sim.incr _) ?_
  refine Sim.ite _ (Sim.incr _) ?_
  refine Sim.ite _ (Sim.incr _) ?_
  refine Sim.ite _ (Sim.incr _) ?_
  refine Sim.ite _ (Sim.incr _) ?_
  refine Sim.ite _ (Sim.incr _) ?_
  refine Sim.ite _ (Sim.incr _) ?_
  refine Sim.ite _ (Sim.incr _) ?_
  refine Sim.ite _ (Sim.incr _) ?_
  refine Sim.ite _ (Sim.incr _) ?_
  refine Sim.ite _ (Sim.incr _) ?_
  refine Sim.ite _ (Sim.incr _) ?_
  refine Sim.ite _ (Sim.incr _) ?_
  refine Sim.ite _ (Sim.incr _) ?_
  refine Sim.ite _ (Sim.incr _) ?_
  refine Sim.ite _ (Sim.incr _) ?_
  exact Sim.ite _ (Sim.incr _) (Sim.id.weaken (by omega))

theorem sim_two (c : Prop) [Decidable c] (f g : F) :
    Sim 2 (fun i => if c then (i.incr64 f).incr64 g else i) (fun i => if c then (i.incr f).incr g else i) :=
  Sim.ite c ((Sim.incr f).comp (Sim.incr g)) (Sim.id.weaken (by omega))

theorem sim_two' (c : Prop) [Decidable c] (f g : F) :
    Sim 2 (fun i => if c then i else (i.incr64 f).incr64 g) (fun i => if c then i else (i.incr f).incr g) :=
  Sim.ite c (Sim.id.weaken (by omega)) ((Sim.incr f).comp (Sim.incr g))

theorem sim_j1 (s : Seg) : Sim 7 (fun i => statisticJ164 i s) (fun i => statisticJ1 i s) := by
  have inner := Sim.ite (s.validate = none)
    ((((Sim.incr .TotalConsumerSegmentsJ1).comp (sim_two (isValidSocialSecurityNumber (s.fields.int .SocialSecurityNumber) = true)
      .TotalSocialNumbersAllSegments .TotalSocialNumbersJ1Segments)).comp (sim_two' ((s.fields.time .DateBirth).isZero = true)
      .TotalDatesBirthAllSegments .TotalDatesBirthJ1Segments)).comp (Sim.incrIf (s.fields.int .TelephoneNumber > 0) .TotalTelephoneNumbersAllSegments))
    (Sim.id.weaken (by omega))
  exact Sim.ite (s.kind ≠ .j1) (Sim.id.weaken (by omega)) ((Sim.incrIf (s.fields.str .ECOACode = b! "Z") .TotalECOACodeZ).comp inner)

theorem sim_j2 (s : Seg) : Sim 7 (fun i => statisticJ264 i s) (fun i => statisticJ2 i s) := by
  have inner := Sim.ite (s.validate = none)
    ((((Sim.incr .TotalConsumerSegmentsJ2).comp (sim_two (isValidSocialSecurityNumber (s.fields.int .SocialSecurityNumber) = true)
      .TotalSocialNumbersAllSegments .TotalSocialNumbersJ2Segments)).comp (sim_two' ((s.fields.time .DateBirth).isZero = true)
      .TotalDatesBirthAllSegments .TotalDatesBirthJ2Segments)).comp (Sim.incrIf (s.fields.int .TelephoneNumber > 0) .TotalTelephoneNumbersAllSegments))
    (Sim.id.weaken (by omega))
  exact Sim.ite (s.kind ≠ .j2) (Sim.id.weaken (by omega)) ((Sim.incrIf (s.fields.str .ECOACode = b! "Z") .TotalECOACodeZ).comp inner)

theorem sim_other (k : SegKind) (s : Seg) : Sim 7 (fun i => statisticOther64 k i s) (fun i => statisticOther k i s) := by
  unfold statisticOther64 statisticOther
  refine Sim.ite _ (Sim.id.weaken (by omega)) ?_
  cases k
  · exact Sim.id.weaken (by omega)
  · exact Sim.id.weaken (by omega)
  all_goals exact (Sim.incrIf _ _).weaken (by omega)

/-- The number of segments of a data record. -/
def segCount (g : Segs) : Nat :=
  g.j1.length + g.j2.length + g.k1.toList.length + g.k2.toList.length + g.k3.toList.length + g.k4.toList.length + g.l1.toList.length + g.n1.toList.length

theorem sim_base (g : Segs) : Sim (7 * segCount g) (statisticBase64 g) (statisticBase g) := by
  have h := (((((((Sim.foldl sim_j1 (g.get (b! "j1"))).comp (Sim.foldl sim_j2 (g.get (b! "j2")))).comp (Sim.foldl (sim_other .k1) (g.get (b! "k1")))).comp
    (Sim.foldl (sim_other .k2) (g.get (b! "k2")))).comp (Sim.foldl (sim_other .k3) (g.get (b! "k3")))).comp (Sim.foldl (sim_other .k4) (g.get (b! "k4")))).comp
    (Sim.foldl (sim_other .l1) (g.get (b! "l1")))).comp (Sim.foldl (sim_other .n1) (g.get (b! "n1")))
  refine Sim.weaken (k := _) h ?_
  simp only [show g.get (b! "j1") = g.j1 from rfl, show g.get (b! "j2") = g.j2 from rfl,
    show g.get (b! "k1") = g.k1.toList from rfl, show g.get (b! "k2") = g.k2.toList from rfl,
    show g.get (b! "k3") = g.k3.toList from rfl, show g.get (b! "k4") = g.k4.toList from rfl,
    show g.get (b! "l1") = g.l1.toList from rfl, show g.get (b! "n1") = g.n1.toList from rfl, segCount]
  omega

theorem sim_record (fs : Fields) (g : Segs) : Sim (7 + 7 * segCount g) (statisticRecord64 fs g) (statisticRecord fs g) :=
  ((((((sim_two _ _ _).comp (sim_two' _ _ _)).comp (Sim.incrIf _ _)).comp (Sim.incrIf _ _)).comp (sim_status _)).comp (sim_base g)).weaken (by omega)

/-- One for the record and one for each of its segments. -/
def pieceCount : Record → Nat
  | .base _ _ g => 1 + segCount g
  | _ => 1

/-- The number of data records and segments in a list of records. -/
def piecesOf (bases : List Record) : Nat := (bases.map pieceCount).sum

theorem generatorLoop64_eq (enc : Enc) (bases : List Record) : ∀ n info, n + 7 * piecesOf bases < 2 ^ 63 → Small n info →
    generatorLoop64 enc bases info = generatorLoop enc bases info := by
  induction bases with
  | nil => intro n info _ _; rfl
  | cons r bases ih =>
    intro n info hn hs
    have hp : piecesOf (r :: bases) = pieceCount r + piecesOf bases := by
      simp only [piecesOf, List.map_cons, List.sum_cons]
    rw [hp] at hn
    cases r with
    | header => rfl
    | trailer => rfl
    | base e fs g =>
      simp only [pieceCount] at hn
      unfold generatorLoop64 generatorLoop
      by_cases he : e = enc
      · rw [if_pos he, if_pos he]
        obtain ⟨h1, h2⟩ := sim_record fs g n info (by omega) hs
        rw [h1]
        exact ih _ _ (by omega) h2
      · rw [if_neg he, if_neg he]

theorem piecesOf_length (bases : List Record) : bases.length ≤ piecesOf bases := by
  induction bases with
  | nil => exact Nat.le_refl _
  | cons r bases ih =>
    simp only [piecesOf, List.map_cons, List.sum_cons, List.length_cons] at ih ⊢
    cases r <;> simp only [pieceCount] <;> omega

theorem generatorTrailer64_eq (f : File) (h : 8 * piecesOf f.bases < 2 ^ 62) : f.generatorTrailer64 = f.generatorTrailer := by
  have hl := piecesOf_length f.bases
  have hw : wrap ((f.bases.length : Int) + 2) = f.bases.length + 2 := wrap_word ⟨by omega, by omega⟩
  have hs : Small (f.bases.length + 2) (((zeroFields trailerRecordStruct).set .TotalBaseRecords (.int f.bases.length)).set .BlockCount (.int (f.bases.length + 2))) := by
    intro g
    rcases int_set_le ((zeroFields trailerRecordStruct).set .TotalBaseRecords (.int f.bases.length)) .BlockCount g (f.bases.length + 2) with h | ⟨-, h⟩ <;> rw [h]
    · rcases int_set_le (zeroFields trailerRecordStruct) .TotalBaseRecords g f.bases.length with h | ⟨-, h⟩ <;> rw [h]
      · have : (zeroFields trailerRecordStruct).int g = 0 := by cases g <;> decide +kernel
        rw [this]
        constructor <;> omega
      · constructor <;> omega
    · constructor <;> omega
  unfold File.generatorTrailer64 File.generatorTrailer generatorTrailer
  simp only
  rw [hw, generatorLoop64_eq f.format f.bases (f.bases.length + 2) _ (by omega) hs]
  rfl

/-! ### Reading -/

theorem sliceWord_nat (s : Bytes) (a b : Nat) : sliceWord s (a : Int) (b : Int) = slice s a b := by
  unfold sliceWord slice
  by_cases h : a ≤ b ∧ b ≤ s.length
  · rw [if_pos h, if_pos ⟨by omega, by omega, by omega⟩]
    congr 2
    omega
  · rw [if_neg h, if_neg (by omega)]

/-- All positions of a table are small. -/
def TableSmall (fmt : Format) : Prop := ∀ f e, fmt.lookup f = some e → e.start + e.len ≤ 1000

theorem tableSmall_of {fmt : Format} (h : ∀ p ∈ fmt, p.2.start + p.2.len ≤ 1000) : TableSmall fmt := by
  intro f e he
  have : ∀ l : Format, l.lookup f = some e → (f, e) ∈ l := by
    intro l
    induction l with
    | nil => intro h; cases h
    | cons p l ih =>
      obtain ⟨g, d⟩ := p
      intro h
      rw [List.lookup_cons] at h
      by_cases hg : (f == g) = true
      · rw [hg] at h
        rw [beq_iff_eq.1 hg, Option.some.inj h]
        exact List.mem_cons_self
      · rw [Bool.not_eq_true _ |>.mp hg] at h
        exact List.mem_cons_of_mem _ (ih h)
  exact h _ (this fmt he)

theorem parseLoop64_eq {fmt : Format} (hf : TableSmall fmt) (pol : BdwPolicy) (bounds : Bool) (rec : Bytes) (fs : Fields) :
    ∀ off : Nat, off + 4 * fs.length ≤ 1000000 → parseLoop64 fmt pol bounds rec (off : Int) fs = parseLoop fmt pol bounds rec off fs := by
  induction fs with
  | nil => intro off _; rfl
  | cons p rest ih =>
    obtain ⟨f, v⟩ := p
    intro off ho
    rw [List.length_cons] at ho
    rw [parseLoop64, parseLoop]
    cases hl : fmt.lookup f with
    | none => rfl
    | some e =>
      have hs := hf f e hl
      have h1 : wrap (wrap ((e.start : Int) + e.len) + off) = ((e.start + e.len + off : Nat) : Int) := by
        rw [wrap_word (i := (e.start : Int) + e.len) ⟨by omega, by omega⟩, wrap_word ⟨by omega, by omega⟩]
        omega
      have h2 : wrap ((e.start : Int) + off) = ((e.start + off : Nat) : Int) := by
        rw [wrap_word ⟨by omega, by omega⟩]
        omega
      have h3 : wrap ((off : Int) + 4) = ((off + 4 : Nat) : Int) := by
        rw [wrap_word ⟨by omega, by omega⟩]
        omega
      simp only [h1, h2, h3, sliceWord_nat, Int.ofNat_lt]
      rw [ih off (by omega), ih (off + 4) (by omega)]
      by_cases hb : bounds = true ∧ rec.length < e.start + e.len + off
      · rw [if_pos hb, if_pos hb]
      · rw [if_neg hb, if_neg hb]
        rfl

theorem smallWord_header (enc : Enc) : TableSmall enc.headerFormat := by cases enc <;> exact tableSmall_of (by decide +kernel)
theorem smallWord_base (enc : Enc) : TableSmall enc.baseFormat := by cases enc <;> exact tableSmall_of (by decide +kernel)
theorem small_trail (enc : Enc) : TableSmall enc.trailerFormat := by cases enc <;> exact tableSmall_of (by decide +kernel)
theorem small_seg (k : SegKind) : TableSmall k.format := by cases k <;> exact tableSmall_of (by decide +kernel)

/-- The result of `Seg.parse` with the size as an integer. -/
def toWord (p : Seg × Except Err Nat) : Seg × Except Err Int :=
  (p.1, match p.2 with
    | .ok n => .ok (n : Int)
    | .error err => .error err)

theorem segParse64_eq (s : Seg) (h : s.fields.length ≤ 1000) (rec : Bytes) (isVar : Bool) : s.parse64 rec isVar = toWord (s.parse rec isVar) := by
  unfold Seg.parse64 Seg.parse
  by_cases hl : rec.length < s.kind.length
  · rw [if_pos hl, if_pos hl]; rfl
  · rw [if_neg hl, if_neg hl]
    rw [show (0 : Int) = ((0 : Nat) : Int) from rfl, parseLoop64_eq (small_seg _) _ _ _ _ 0 (by omega)]
    generalize parseLoop s.kind.format (if isVar then .accept else .skip) true rec 0 s.fields = r
    obtain ⟨fs, x⟩ := r
    cases x <;> rfl

theorem newSeg_length (k : SegKind) : (Seg.new k).fields.length ≤ 1000 := by cases k <;> decide +kernel

theorem seg_read {s : Seg} {rec : Bytes} {isVar : Bool} {s' : Seg} {n : Nat} (h : s.parse rec isVar = (s', .ok n)) : n ≤ rec.length := by
  unfold Seg.parse at h
  by_cases hl : rec.length < s.kind.length
  · rw [if_pos hl] at h; cases h
  · rw [if_neg hl] at h
    revert h
    generalize parseLoop s.kind.format (if isVar then .accept else .skip) true rec 0 s.fields = r
    obtain ⟨fs, x⟩ := r
    cases x with
    | some e => intro h; cases h
    | none =>
      intro h
      simp only [Prod.mk.injEq, Except.ok.injEq] at h
      omega

theorem readSegs64_eq (isVar : Bool) (record : Bytes) (hlen : (record.length : Int) < 2 ^ 62) : ∀ fuel g (off : Nat), off ≤ record.length →
    readSegs64 isVar record fuel g (off : Int) =
      ((readSegs isVar fuel g off (record.drop off)).1, match (readSegs isVar fuel g off (record.drop off)).2 with
        | .ok n => .ok (n : Int)
        | .error err => .error err) := by
  intro fuel
  induction fuel with
  | zero => intro g off _; rfl
  | succ fuel ih =>
    intro g off ho
    rw [readSegs64, readSegs]
    have h1 : wrap ((off : Int) + 2) = ((off + 2 : Nat) : Int) := by
      rw [wrap_word ⟨by omega, by omega⟩]; omega
    have hd : (record.drop off).length = record.length - off := List.length_drop
    rw [h1]
    by_cases hc : 2 < (record.drop off).length
    · rw [if_pos hc, if_pos (by omega)]
      have hs : sliceWord record (off : Int) ((off + 2 : Nat) : Int) = slice (record.drop off) 0 2 := by
        rw [sliceWord_nat]
        unfold slice
        rw [if_pos ⟨by omega, by omega⟩, if_pos ⟨by omega, by omega⟩, List.drop_zero, show off + 2 - off = 2 - 0 from by omega]
      rw [hs]
      cases slice (record.drop off) 0 2 with
      | none => rfl
      | some id =>
        simp only
        cases segKindOfIdent id with
        | none => rfl
        | some k =>
          simp only
          have hsf : sliceFrom record (off : Int) = some (record.drop off) := by
            unfold sliceFrom
            rw [if_pos ⟨by omega, by omega⟩]
            rfl
          rw [hsf]
          simp only
          rw [segParse64_eq _ (newSeg_length k)]
          cases hp : (Seg.new k).parse (record.drop off) isVar with
          | mk s x =>
          cases x with
          | error err => rfl
          | ok n =>
            simp only [toWord]
            have hn := seg_read hp
            cases ha : g.add s with
            | mk g' o =>
            cases o with
            | some err => rfl
            | none =>
              simp only
              have h2 : wrap ((off : Int) + n) = ((off + n : Nat) : Int) := by
                rw [wrap_word ⟨by omega, by omega⟩]; omega
              rw [h2, ih g' (off + n) (by omega), List.drop_drop]
    · rw [if_neg hc, if_neg (by omega)]

theorem header64_eq (enc : Enc) (fs : Fields) (h : fs.length ≤ 1000) (rec : Bytes) (isVar : Bool) :
    parseHeader64 enc fs rec isVar = parseHeader enc fs rec isVar := by
  unfold parseHeader64 parseHeader
  rw [show (0 : Int) = ((0 : Nat) : Int) from rfl, parseLoop64_eq (smallWord_header enc) _ _ _ _ 0 (by omega)]
  rfl

theorem trailer64_eq (enc : Enc) (fs : Fields) (h : fs.length ≤ 1000) (rec : Bytes) (isVar : Bool) :
    parseTrailer64 enc fs rec isVar = parseTrailer enc fs rec isVar := by
  have : trailerLoop64 enc fs rec isVar = trailerLoop enc fs rec isVar := by
    unfold trailerLoop64 trailerLoop
    cases enc with
    | character => exact parseLoop64_eq (small_trail .character) _ _ _ _ 0 (by omega)
    | packed => exact parseLoop64_eq (small_trail .packed) _ _ _ _ 0 (by omega)
  unfold parseTrailer64 parseTrailer
  rw [this]
  rfl

theorem readAll64_eq (isVar : Bool) (tail : Bytes) (h : (tail.length : Int) < 2 ^ 62) (g : Segs) :
    readSegs64 isVar tail (tail.length + 1) g 0 = ((readApplicableSegments g tail isVar).1, match (readApplicableSegments g tail isVar).2 with
      | .ok n => .ok (n : Int)
      | .error err => .error err) :=
  readSegs64_eq isVar tail h (tail.length + 1) g 0 (Nat.zero_le _)

theorem readSegs_le (isVar : Bool) : ∀ fuel g off (rec : Bytes) g' n, readSegs isVar fuel g off rec = (g', .ok n) → n ≤ off + rec.length := by
  intro fuel
  induction fuel with
  | zero => intro g off rec g' n h; cases h
  | succ fuel ih =>
    intro g off rec g' n h
    rw [readSegs] at h
    by_cases hc : 2 < rec.length
    · rw [if_pos hc] at h
      revert h
      cases slice rec 0 2 with
      | none => intro h; cases h
      | some id =>
        simp only
        cases segKindOfIdent id with
        | none => intro h; simp only [Prod.mk.injEq, Except.ok.injEq] at h; omega
        | some k =>
          simp only
          cases hp : (Seg.new k).parse rec isVar with
          | mk s x =>
          cases x with
          | error err => intro h; cases h
          | ok m =>
            simp only
            have hm := seg_read hp
            cases ha : g.add s with
            | mk g1 o =>
            cases o with
            | some err => intro h; cases h
            | none =>
              simp only
              intro h
              have := ih _ _ _ _ _ h
              rw [List.length_drop] at this
              omega
    · rw [if_neg hc] at h
      simp only [Prod.mk.injEq, Except.ok.injEq] at h
      omega

theorem character64_eq (fs : Fields) (h : fs.length ≤ 1000) (g : Segs) (rec : Bytes) (hr : (rec.length : Int) < 2 ^ 62) (isVar : Bool) :
    parseBaseCharacter64 fs g rec isVar = parseBaseCharacter fs g rec isVar := by
  unfold parseBaseCharacter64 parseBaseCharacter
  rw [show parseLoop64 baseSegmentCharacterFormat (if isVar then .accept else .skip) true rec 0 fs =
    parseLoop baseSegmentCharacterFormat (if isVar then .accept else .skip) true rec 0 fs from parseLoop64_eq (smallWord_base .character) _ _ _ _ 0 (by omega)]
  by_cases hl : rec.length < 426
  · rw [if_pos hl, if_pos hl]
  rw [if_neg hl, if_neg hl]
  generalize parseLoop baseSegmentCharacterFormat (if isVar then .accept else .skip) true rec 0 fs = r
  obtain ⟨fs', x⟩ := r
  cases x with
  | some err => rfl
  | none =>
    simp only
    have ho : (if fs'.int .BlockDescriptorWord > 0 then wrap (426 + 4) else 426) = ((if fs'.int .BlockDescriptorWord > 0 then 426 + 4 else 426 : Nat) : Int) := by
      by_cases hb : fs'.int .BlockDescriptorWord > 0
      · rw [if_pos hb, if_pos hb]; rfl
      · rw [if_neg hb, if_neg hb]; rfl
    rw [ho]
    have hoff : (if fs'.int .BlockDescriptorWord > 0 then 426 + 4 else 426 : Nat) ≤ 430 := by split <;> omega
    generalize (if fs'.int .BlockDescriptorWord > 0 then 426 + 4 else 426 : Nat) = off at hoff
    by_cases h1 : rec.length < off
    · rw [if_pos h1, if_pos (by omega)]
    · rw [if_neg h1, if_neg (by omega)]
      cases hs : sliceFrom rec (off : Int) with
      | none => rfl
      | some tail =>
        simp only
        have ht : tail.length ≤ rec.length := by
          unfold sliceFrom at hs
          split at hs
          · rw [← Option.some.inj hs, List.length_drop]; omega
          · cases hs
        rw [readAll64_eq isVar tail (by omega)]
        cases hq : readApplicableSegments { g with j1 := [], j2 := [] } tail isVar with
        | mk g' y =>
        cases y with
        | error err => rfl
        | ok n =>
          simp only
          have hn := readSegs_le _ _ _ _ _ _ _ hq
          rw [wrap_word (i := (n : Int) + off) ⟨by omega, by omega⟩]

theorem packed64_eq (fs : Fields) (h : fs.length ≤ 1000) (g : Segs) (rec : Bytes) (hr : (rec.length : Int) < 2 ^ 62) (isVar : Bool) :
    parseBasePacked64 fs g rec isVar = parseBasePacked fs g rec isVar := by
  unfold parseBasePacked64 parseBasePacked
  rw [show parseLoop64 baseSegmentPackedFormat (if isVar then .accept else .fail) true rec 0 fs =
    parseLoop baseSegmentPackedFormat (if isVar then .accept else .fail) true rec 0 fs from parseLoop64_eq (smallWord_base .packed) _ _ _ _ 0 (by omega)]
  by_cases hl : rec.length < 366
  · rw [if_pos hl, if_pos hl]
  rw [if_neg hl, if_neg hl]
  generalize parseLoop baseSegmentPackedFormat (if isVar then .accept else .fail) true rec 0 fs = r
  obtain ⟨fs', x⟩ := r
  cases x with
  | some err => rfl
  | none =>
    simp only
    rw [show wrap (366 + 4) = ((366 + 4 : Nat) : Int) from rfl]
    by_cases h1 : rec.length < 366 + 4
    · rw [if_pos h1, if_pos (by omega)]
    · rw [if_neg h1, if_neg (by omega)]
      cases hs : sliceFrom rec ((366 + 4 : Nat) : Int) with
      | none => rfl
      | some tail =>
        simp only
        have ht : tail.length ≤ rec.length := by
          unfold sliceFrom at hs
          split at hs
          · rw [← Option.some.inj hs, List.length_drop]; omega
          · cases hs
        rw [readAll64_eq isVar tail (by omega)]
        cases hq : readApplicableSegments { g with j1 := [], j2 := [] } tail isVar with
        | mk g' y =>
        cases y with
        | error err => rfl
        | ok n =>
          simp only
          have hn := readSegs_le _ _ _ _ _ _ _ hq
          rw [wrap_word (i := (n : Int) + (366 + 4 : Nat)) ⟨by omega, by omega⟩]

/-- The fields of a record. -/
def Record.fieldsOf : Record → Fields
  | .header _ fs => fs
  | .base _ fs _ => fs
  | .trailer _ fs => fs

theorem record64_eq (r : Record) (h : r.fieldsOf.length ≤ 1000) (rec : Bytes) (hr : (rec.length : Int) < 2 ^ 62) (isVar : Bool) :
    r.parse64 rec isVar = r.parse rec isVar := by
  cases r with
  | header enc fs => simp only [Record.parse64, Record.parse, header64_eq enc fs h]
  | trailer enc fs => simp only [Record.parse64, Record.parse, trailer64_eq enc fs h]
  | base enc fs g =>
    cases enc with
    | character => simp only [Record.parse64, Record.parse, character64_eq fs h g rec hr]
    | packed => simp only [Record.parse64, Record.parse, packed64_eq fs h g rec hr]

/-! ### The numbers read are words -/

theorem parseValue_word {e : Field} {data : Bytes} {i : Int} (h : parseValue e data = .ok (.int i)) : Spec.IsWord i := by
  unfold parseValue at h
  have hmap : ∀ {x : Except Err Time}, x.map Val.time ≠ .ok (.int i) := by
    intro x hx; cases x <;> cases hx
  split at h
  · cases hp : parseInt data with
    | error err => rw [hp] at h; cases h
    | ok v =>
      rw [hp] at h
      simp only [Except.ok.injEq, Val.int.injEq] at h
      subst h
      obtain ⟨-, h1, h2⟩ := parseIntBits_ok_iff.1 hp
      unfold Spec.IsWord
      omega
  · exact absurd h hmap
  · exact absurd h hmap
  · cases h
  · cases h
  · split at h
    · cases h
    · simp only [Except.ok.injEq, Val.int.injEq] at h
      subst h
      have h1 := beVal_lt (data.take 2)
      have h2 : (data.take 2).length ≤ 2 := by rw [List.length_take]; omega
      have h3 : 256 ^ (data.take 2).length ≤ 256 ^ 2 := Nat.pow_le_pow_right (by omega) h2
      unfold Spec.IsWord
      omega
  · exact absurd h hmap
  · exact absurd h hmap
  · unfold packedNumberFromString at h
    generalize beVal ((List.replicate (8 - data.length) 0 ++ data).take 8) = n at h
    unfold convertInt64 at h
    split at h
    · simp only [Except.map, Except.ok.injEq, Val.int.injEq] at h
      unfold Spec.IsWord
      omega
    · cases h

theorem setVal_eq {v w x : Val} (h : setVal v w = some x) : x = w := by
  unfold setVal at h
  split at h <;> simp_all

theorem parseLoop_words {fmt : Format} {pol : BdwPolicy} {bounds : Bool} {rec : Bytes} (fs : Fields) : ∀ off, Spec.WordFields fs →
    Spec.WordFields (parseLoop fmt pol bounds rec off fs).1 := by
  induction fs with
  | nil => intro off h; exact h
  | cons p rest ih =>
    obtain ⟨f, v⟩ := p
    intro off h
    have hr : Spec.WordFields rest := fun g i hg => h g i (List.mem_cons_of_mem _ hg)
    have hv : ∀ i, v = .int i → Spec.IsWord i := fun i hi => h f i (by rw [hi]; exact List.mem_cons_self)
    have hcons : ∀ {w : Val} {l : Fields}, (∀ i, w = .int i → Spec.IsWord i) → Spec.WordFields l → Spec.WordFields ((f, w) :: l) := by
      intro w l hw hl g i hg
      rcases List.mem_cons.1 hg with hg | hg
      · exact hw i (Prod.mk.inj hg).2.symm
      · exact hl g i hg
    rw [parseLoop]
    cases fmt.lookup f with
    | none => exact h
    | some e =>
      simp only
      split
      · exact h
      · split
        · exact h
        · split
          · exact h
          · split
            · exact h
            · rename_i new hnew
              have hw : ∀ x, setVal v new = some x → ∀ i, x = .int i → Spec.IsWord i := by
                intro x hx i hi
                rw [setVal_eq hx] at hi
                rw [hi] at hnew
                exact parseValue_word hnew
              split
              · exact hcons hv (ih off hr)
              · exact h
              · split
                · exact h
                · exact hcons (hw _ (by assumption)) (ih (off + 4) hr)
              · split
                · exact h
                · exact hcons (hw _ (by assumption)) (ih off hr)

theorem word_int {fs : Fields} (h : Spec.WordFields fs) (f : F) : Spec.IsWord (fs.int f) := by
  unfold Fields.int
  split
  · rename_i i hi
    refine h f i ?_
    revert hi
    unfold Fields.get
    induction fs with
    | nil => intro hi; cases hi
    | cons p l ih =>
      obtain ⟨g, d⟩ := p
      intro hi
      rw [List.lookup_cons] at hi
      by_cases hg : (f == g) = true
      · rw [hg] at hi
        rw [beq_iff_eq.1 hg, Option.some.inj hi]
        exact List.mem_cons_self
      · rw [Bool.not_eq_true _ |>.mp hg] at hi
        exact List.mem_cons_of_mem _ (ih (fun a b hab => h a b (List.mem_cons_of_mem _ hab)) hi)
  · exact ⟨by omega, by omega⟩

theorem word_ite {fs : Fields} (h : Spec.WordFields fs) (c : Prop) [Decidable c] (f g : F) : Spec.IsWord (if c then fs.int f else fs.int g) := by
  by_cases hc : c
  · rw [if_pos hc]; exact word_int h f
  · rw [if_neg hc]; exact word_int h g

theorem header_words {enc : Enc} {fs : Fields} (hw : Spec.WordFields fs) (rec : Bytes) (isVar : Bool) :
    ∀ n, (parseHeader enc fs rec isVar).2 = .ok n → Spec.IsWord n := by
  intro n h
  unfold parseHeader at h
  have hl := parseLoop_words (fmt := enc.headerFormat) (pol := headerPolicy enc rec isVar) (bounds := true) (rec := rec) fs 0 hw
  revert h hl
  by_cases hc : rec.length < enc.recordLength
  · rw [if_pos hc]; intro h; cases h
  · rw [if_neg hc]
    generalize parseLoop enc.headerFormat (headerPolicy enc rec isVar) true rec 0 fs = r
    obtain ⟨fs', x⟩ := r
    cases x with
    | some err => intro h; cases h
    | none =>
      intro h hl
      simp only [Except.ok.injEq] at h
      rw [← h]
      exact word_ite hl _ _ _

theorem trailer_words {enc : Enc} {fs : Fields} (hw : Spec.WordFields fs) (rec : Bytes) (isVar : Bool) :
    ∀ n, (parseTrailer enc fs rec isVar).2 = .ok n → Spec.IsWord n := by
  intro n h
  unfold parseTrailer at h
  have hl : Spec.WordFields (trailerLoop enc fs rec isVar).1 := by
    unfold trailerLoop
    cases enc
    · exact parseLoop_words fs 0 hw
    · exact parseLoop_words fs 0 hw
  revert h hl
  by_cases hc : rec.length < enc.recordLength
  · rw [if_pos hc]; intro h; cases h
  · rw [if_neg hc]
    generalize trailerLoop enc fs rec isVar = r
    obtain ⟨fs', x⟩ := r
    cases x with
    | some err => intro h; cases h
    | none =>
      intro h hl
      simp only [Except.ok.injEq] at h
      rw [← h]
      exact word_int hl _

theorem base_words {enc : Enc} {fs : Fields} (hw : Spec.WordFields fs) (g : Segs) (rec : Bytes) (isVar : Bool) :
    ∀ n, ((Record.base enc fs g).parse rec isVar).2 = .ok n → Spec.IsWord n := by
  intro n h
  cases enc with
  | character =>
    have h : (parseBaseCharacter fs g rec isVar).2 = .ok n := h
    unfold parseBaseCharacter at h
    have hl := parseLoop_words (fmt := baseSegmentCharacterFormat) (pol := if isVar then .accept else .skip) (bounds := true) (rec := rec) fs 0 hw
    revert h hl
    generalize parseLoop baseSegmentCharacterFormat (if isVar then .accept else .skip) true rec 0 fs = r
    obtain ⟨fs', x⟩ := r
    intro h hl
    split at h
    · cases h
    · split at h
      · cases h
      · rename_i heq
        cases heq
        simp only at h
        generalize (if fs'.int .BlockDescriptorWord > 0 then 426 + 4 else 426) = off at h
        split at h
        · cases h
        · split at h
          · cases h
          · split at h
            · cases h
            · split at h
              · cases h
              · split at h
                · cases h
                · simp only [Except.ok.injEq] at h
                  rw [← h]
                  exact word_ite hl _ _ _
  | packed =>
    have h : (parseBasePacked fs g rec isVar).2 = .ok n := h
    unfold parseBasePacked at h
    have hl := parseLoop_words (fmt := baseSegmentPackedFormat) (pol := if isVar then .accept else .fail) (bounds := true) (rec := rec) fs 0 hw
    revert h hl
    generalize parseLoop baseSegmentPackedFormat (if isVar then .accept else .fail) true rec 0 fs = r
    obtain ⟨fs', x⟩ := r
    intro h hl
    split at h
    · cases h
    · split at h
      · cases h
      · rename_i heq
        cases heq
        simp only at h
        split at h
        · cases h
        · split at h
          · cases h
          · split at h
            · cases h
            · split at h
              · cases h
              · simp only [Except.ok.injEq] at h
                rw [← h]
                exact word_int hl _

theorem zero_words {decl : List (F × FieldDecl)} : Spec.WordFields (zeroFields decl) := by
  intro f i h
  unfold zeroFields at h
  obtain ⟨p, -, hp⟩ := List.mem_map.1 h
  have := (Prod.mk.inj hp).2
  revert this
  unfold Kind.zero
  split <;> intro h
  all_goals first | cases h; exact ⟨by omega, by omega⟩ | cases h

/-! ### Files -/

/-- The same outcome of the loop over the data records; the position counts only if there is no error. -/
def SameOutcome : Option (List Record × Int × Option Err) → Option (List Record × Int × Option Err) → Prop
  | none, none => True
  | some (bs, off, none), some (bs', off', none) => bs = bs' ∧ off = off' ∧ Spec.IsWord off
  | some (bs, _, some e), some (bs', _, some e') => bs = bs' ∧ e = e'
  | _, _ => False

theorem parseBases64_eq (enc : Enc) (isVar : Bool) (record : Bytes) (hr : (record.length : Int) < 2 ^ 62) : ∀ fuel (off : Int) acc,
    -9223372036854775808 ≤ off → off < 18446744073709551616 - 4611686018427387904 →
    SameOutcome (parseBases64 enc isVar record fuel (wrap off) acc) (parseBases enc isVar record fuel off acc) := by
  intro fuel
  induction fuel with
  | zero => intro off acc _ _; trivial
  | succ fuel ih =>
    intro off acc h1 h2
    rw [parseBases64, parseBases]
    by_cases hc : off ≤ 0 ∨ (record.length : Int) ≤ off
    · rw [if_pos hc, if_pos (by unfold wrap; omega)]
      exact ⟨rfl, rfl⟩
    · have hw : wrap off = off := wrap_word ⟨by omega, by omega⟩
      rw [if_neg hc, hw, if_neg hc]
      have hsf : sliceFrom record off = some (record.drop off.toNat) := by
        unfold sliceFrom; rw [if_pos ⟨by omega, by omega⟩]
      rw [hsf]
      simp only
      have hlen : (record.drop off.toNat).length ≤ record.length := by rw [List.length_drop]; omega
      rw [record64_eq _ (by cases enc <;> decide +kernel : (newBase enc).fieldsOf.length ≤ 1000) _ (by omega)]
      have hbw := base_words (enc := enc) (fs := zeroFields baseSegmentStruct) zero_words {} (record.drop off.toNat) isVar
      have hbw : ∀ n, ((newBase enc).parse (record.drop off.toNat) isVar).2 = .ok n → Spec.IsWord n := hbw
      revert hbw
      generalize (newBase enc).parse (record.drop off.toNat) isVar = q
      obtain ⟨b, x⟩ := q
      intro hbw
      cases x with
      | error err =>
        cases err <;> first | exact ⟨rfl, rfl⟩ | exact ⟨rfl, rfl, by omega, by omega⟩
      | ok n =>
        have hn := hbw n rfl
        unfold Spec.IsWord at hn
        exact ih (off + n) (acc ++ [b]) (by omega) (by omega)

theorem typed_length {decl : List (F × FieldDecl)} {fs : Fields} (h : fs.Typed decl) : fs.length = decl.length := by
  induction decl generalizing fs with
  | nil => cases fs with
    | nil => rfl
    | cons p fs => exact h.elim
  | cons d decl ih => cases fs with
    | nil => exact h.elim
    | cons p fs => rw [List.length_cons, List.length_cons, ih h.2.2]

theorem file64_eq {f : File} (hf : Spec.WordFile f) (fuel : Nat) (buf : Bytes) (isVar : Bool) (hb : (buf.length : Int) < 2 ^ 62) :
    f.parse64 fuel buf isVar = f.parse fuel buf isVar := by
  obtain ⟨hfs, hh, ht, hw⟩ := hf.header
  obtain ⟨tfs, hh', ht', hw'⟩ := hf.trailer
  have hrec : (((deleteFunc isNewline buf).1).length : Int) < 2 ^ 62 := by
    have : ((deleteFunc isNewline buf).1).length ≤ buf.length := by
      rw [deleteFunc_eq]
      exact List.length_filter_le _ _
    omega
  unfold File.parse64 File.parse
  generalize (deleteFunc isNewline buf).1 = record at hrec
  simp only
  have hlen : f.header.fieldsOf.length ≤ 1000 := by
    rw [hh]; show hfs.length ≤ 1000; rw [typed_length ht]; decide +kernel
  rw [record64_eq f.header hlen record hrec]
  have hwd : ∀ n, (f.header.parse record isVar).2 = .ok n → Spec.IsWord n := by
    rw [hh]; exact header_words hw record isVar
  revert hwd
  generalize f.header.parse record isVar = q
  obtain ⟨h, x⟩ := q
  intro hwd
  cases x with
  | error err => rfl
  | ok head =>
    have hn := hwd head rfl
    simp only
    unfold Spec.IsWord at hn
    rw [show (0 : Int) + head = head from by omega]
    have hso := parseBases64_eq f.format isVar record hrec fuel head [] (by omega) (by omega)
    revert hso
    generalize parseBases64 f.format isVar record fuel (wrap head) [] = a
    generalize parseBases f.format isVar record fuel head [] = b
    intro hso
    match a, b, hso with
    | none, none, _ => rfl
    | some (bs, off, none), some (bs', off', none), ⟨h1, h2, h3⟩ =>
      subst h1 h2
      simp only
      by_cases hc : off ≤ 0 ∨ (record.length : Int) ≤ off
      · rw [if_pos hc, if_pos hc]
      · rw [if_neg hc, if_neg hc]
        have hsf : sliceFrom record off = some (record.drop off.toNat) := by
          unfold sliceFrom; rw [if_pos ⟨by omega, by omega⟩]
        rw [hsf]
        simp only
        have hlen' : f.trailer.fieldsOf.length ≤ 1000 := by
          rw [hh']; show tfs.length ≤ 1000; rw [typed_length ht']; decide +kernel
        have hdl : (record.drop off.toNat).length ≤ record.length := by rw [List.length_drop]; omega
        rw [record64_eq f.trailer hlen' _ (by omega)]
        have hwd' : ∀ n, (f.trailer.parse (record.drop off.toNat) isVar).2 = .ok n → Spec.IsWord n := by
          rw [hh']; exact trailer_words hw' _ isVar
        revert hwd'
        generalize f.trailer.parse (record.drop off.toNat) isVar = q
        obtain ⟨t, y⟩ := q
        intro hwd'
        cases y with
        | error err => rfl
        | ok tread =>
          have hn' := hwd' tread rfl
          simp only
          unfold Spec.IsWord at hn'
          by_cases he : off + tread = record.length
          · rw [if_neg (by rw [wrap_word ⟨by omega, by omega⟩]; simpa using he), if_neg (by simpa using he)]
          · rw [if_pos (by unfold wrap; omega), if_pos he]
    | some (bs, off, some e), some (bs', off', some e'), ⟨h1, h2⟩ =>
      subst h1 h2
      rfl

/-! ### Writing -/

theorem block64_eq (enc : Enc) (fs : Fields) (hw : Spec.WordFields fs) : baseBlockSize64 enc fs = baseBlockSize enc fs := by
  cases enc with
  | character => rfl
  | packed =>
    have h := word_int hw .RecordDescriptorWord
    unfold Spec.IsWord at h
    show clampedBlockSize _ = clampedBlockSize _
    by_cases hb : fs.int .BlockDescriptorWord > 0
    · rw [if_pos hb, if_pos hb]
      unfold clampedBlockSize
      by_cases hm : fs.int .RecordDescriptorWord + 4 ≤ 9223372036854775807
      · rw [wrap_word ⟨by omega, hm⟩]
      · rw [if_pos (by unfold wrap; omega), if_pos (by omega)]
    · rw [if_neg hb, if_neg hb]

theorem pages64_eq (bases : List Record) (size : Nat) (hs : size ≤ bases.length) (hl : (bases.length : Int) < 2 ^ 62) : ∀ fuel (i : Nat), i ≤ 2 * bases.length →
    pagesFrom64 bases size fuel i = (pagesFrom bases size fuel i).map some := by
  intro fuel
  induction fuel with
  | zero =>
    intro i _
    rw [pagesFrom64, pagesFrom]
    by_cases h : i < bases.length
    · rw [if_pos h, if_pos (by omega)]; rfl
    · rw [if_neg h, if_neg (by omega)]; rfl
  | succ fuel ih =>
    intro i hi
    rw [pagesFrom64, pagesFrom]
    by_cases h : i < bases.length
    · rw [if_pos h, if_pos (by omega)]
      have hw : wrap ((i : Int) + size) = ((i + size : Nat) : Int) := by rw [wrap_word ⟨by omega, by omega⟩]; omega
      have he : (if wrap ((i : Int) + size) > bases.length then (bases.length : Int) else wrap ((i : Int) + size)) =
          ((if bases.length < i + size then bases.length else i + size : Nat) : Int) := by
        rw [hw]
        by_cases hc : bases.length < i + size
        · rw [if_pos hc, if_pos (by omega)]
        · rw [if_neg hc, if_neg (by omega)]
      simp only [he]
      rw [hw]
      have hle : i ≤ (if bases.length < i + size then bases.length else i + size) ∧ (if bases.length < i + size then bases.length else i + size) ≤ bases.length := by
        split <;> omega
      generalize (if bases.length < i + size then bases.length else i + size) = e at hle
      have hsl : sliceWord bases (i : Int) (e : Int) = some ((bases.drop i).take (e - i)) := by
        unfold sliceWord
        rw [if_pos ⟨by omega, by omega, by omega⟩]
        rw [Int.toNat_natCast, show ((e : Int) - i).toNat = e - i from by omega]
      rw [hsl]
      simp only
      by_cases hc : i + size ≤ 2 * bases.length
      · rw [ih (i + size) hc]
        cases pagesFrom bases size fuel (i + size) <;> rfl
      · omega
    · rw [if_neg h, if_neg (by omega)]; rfl

theorem pageSize_le (len : Nat) (goroutines : Int) : pageSize len goroutines ≤ len := by
  unfold pageSize
  simp only
  generalize hg : (if goroutines < 1 then 1 else goroutines.toNat) = g
  have : 1 ≤ g := by rw [← hg]; split <;> omega
  cases len with
  | zero => rw [Nat.div_eq_of_lt (by omega)]
  | succ l =>
    obtain ⟨g', rfl⟩ : ∃ g', g = g' + 1 := ⟨g - 1, by omega⟩
    apply Nat.div_le_of_le_mul
    have : (g' + 1) * (l + 1) = g' * l + g' + l + 1 := by ring
    omega

/-- A check of `WordFields`. -/
def wordFieldsB (fs : Fields) : Bool := fs.all fun p => match p.2 with
  | .int i => decide (-9223372036854775808 ≤ i ∧ i ≤ 9223372036854775807)
  | _ => true

theorem wordFields_of_B {fs : Fields} (h : wordFieldsB fs = true) : Spec.WordFields fs := by
  intro f i hm
  have := List.all_eq_true.1 h _ hm
  unfold Spec.IsWord
  simpa using this

theorem piecesOf_eq (f : File) : piecesOf f.bases = Spec.pieces f := by
  unfold piecesOf Spec.pieces
  congr 1
  apply List.map_congr_left
  intro r _
  cases r with
  | header => rfl
  | trailer => rfl
  | base e fs g => simp only [pieceCount, segCount]; omega

end Metro2
