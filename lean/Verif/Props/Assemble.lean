import Verif.Spec.Assemble
import Verif.Props.Agree
import Verif.Props.Totals
import Verif.Props.Generated

/-!
C128: files can be taken apart and put together record by record.
-/

namespace Metro2

open Spec Samples

/-- What is known of the records of a stream that was read. -/
theorem lines_read {p : Plan} (hp : p.Progress) {raw first last : Bytes} {f : File} {datas : List Bytes} (h : readFile p raw = .ok f)
    (hl : LinesOf raw f first datas last) {enc : Enc} {isVar : Bool} (ht : Tells first enc isVar) :
    enc = f.format ∧ (∀ t ∈ first :: (datas ++ [last]), RecordText t) ∧ (∀ t ∈ first :: (datas ++ [last]), 366 ≤ t.length) ∧
      (∃ n, (newHeader f.format).parse first isVar = (f.header, .ok n)) ∧
      List.Forall₂ (fun line r => ∃ k, (newBase f.format).parse line isVar = (r, .ok k)) datas f.bases ∧
      (∀ r k, (newBase f.format).parse last isVar ≠ (r, .ok k)) ∧
      ∃ m, (newTrailer f.format).parse last isVar = (f.trailer, .ok m) := by
  obtain ⟨ps, rest, hps, hrec, hlen⟩ := hl
  obtain ⟨qs, hqs, isVar', first', datas', last', rest', n, m, e, ht', h2, h3, h4, h5⟩ := (C102_reader p hp raw f).1 h
  cases pieces_unique hps qs hqs
  have htexts := recordsOf_texts hps
  have hlong := recordsOf_long hps
  rw [hrec] at htexts hlong
  rw [hrec, List.cons_append, List.cons.injEq] at e
  obtain ⟨rfl, e⟩ := e
  obtain ⟨rfl, rfl⟩ := tells_unique (hlong first (by simp)) ht ht'
  obtain ⟨rfl, e'⟩ := List.append_inj e (by rw [hlen, h3.length_eq])
  rw [List.cons.injEq] at e'
  obtain ⟨rfl, -⟩ := e'
  have hm : ∀ t, t ∈ first :: (datas ++ [last]) → t ∈ first :: (datas ++ last :: rest) := by
    intro t ht
    simp only [List.mem_cons, List.mem_append, List.not_mem_nil, or_false] at ht ⊢
    tauto
  exact ⟨rfl, fun t ht => htexts t (hm t ht), fun t ht => hlong t (hm t ht), ⟨n, h2⟩, h3, h4, m, h5⟩

theorem forall₂_zip {α β : Type} {R : α → β → Prop} {l : List α} {l' : List β} (h : List.Forall₂ R l l') {x : α × β} (hx : x ∈ l.zip l') : R x.1 x.2 := by
  induction h with
  | nil => simp at hx
  | cons h1 h2 ih =>
    rw [List.zip_cons_cons, List.mem_cons] at hx
    rcases hx with rfl | hx
    · exact h1
    · exact ih hx

theorem forall₂_of_pairs {α β : Type} {R : α → β → Prop} {l : List (α × β)} (h : ∀ x ∈ l, R x.1 x.2) :
    List.Forall₂ R (l.map (·.1)) (l.map (·.2)) := by
  induction l with
  | nil => exact .nil
  | cons x l ih => exact .cons (h x (by simp)) (ih fun y hy => h y (by simp [hy]))

/-- What is known of a record that occurs in a file. -/
theorem occurs_parse {enc : Enc} {isVar : Bool} {line : Bytes} {r : Record} (h : Occurs enc isVar line r) :
    RecordText line ∧ 366 ≤ line.length ∧ ∃ k, (newBase enc).parse line isVar = (r, .ok k) := by
  obtain ⟨p, raw, f, first, datas, last, hp, hr, hl, rfl, ht, hx⟩ := h
  obtain ⟨-, h1, h2, -, h3, -⟩ := lines_read hp hr hl ht
  have hm : line ∈ first :: (datas ++ [last]) := by
    have := (List.of_mem_zip hx).1
    simp [this]
  exact ⟨h1 _ hm, h2 _ hm, forall₂_zip h3 hx⟩

/-- C128. A header and a trailer of one file and any data records of files of the same format and blocking, in any order and any of them more than once,
make a file: it is read as these records. With or without line feeds, and however it is delivered. -/
theorem C128_assembled (p : Plan) (hp : p.Progress) (raw first last : Bytes) (f : File) (datas : List Bytes) (h : readFile p raw = .ok f)
    (hl : LinesOf raw f first datas last) (isVar : Bool) (ht : Tells first f.format isVar) (pairs : List (Bytes × Record))
    (ho : ∀ x ∈ pairs, Occurs f.format isVar x.1 x.2) (nl : Bool) (p' : Plan) (hp' : p'.Progress) :
    readFile p' (joinRecords nl (first :: (pairs.map (·.1) ++ [last]))) = .ok { f with bases := pairs.map (·.2) } := by
  obtain ⟨-, h1, h2, ⟨n, h3⟩, -, h5, m, h6⟩ := lines_read hp h hl ht
  have hto : ∀ u ∈ first :: (pairs.map (·.1) ++ [last]), RecordText u := by
    intro u hu
    simp only [List.mem_cons, List.mem_append, List.mem_map, List.not_mem_nil, or_false] at hu
    rcases hu with rfl | ⟨x, hx, rfl⟩ | rfl
    · exact h1 _ (by simp)
    · exact (occurs_parse (ho x hx)).1
    · exact h1 _ (by simp)
  obtain ⟨ps, hps, hrec, -⟩ := divided_join nl hto
  refine (C102_reader p' hp' _ _).2 ⟨ps, hps, ?_⟩
  rw [hrec]
  exact ⟨isVar, first, pairs.map (·.1), last, [], n, m, rfl, ht, h3, forall₂_of_pairs fun x hx => (occurs_parse (ho x hx)).2.2, h5, h6⟩

/-- C128. The same for the input of the service and of the program, if there is no brace among the first 1024 bytes. -/
theorem C128_opened (p : Plan) (hp : p.Progress) (raw first last : Bytes) (f : File) (datas : List Bytes) (h : readFile p raw = .ok f)
    (hl : LinesOf raw f first datas last) (isVar : Bool) (ht : Tells first f.format isVar) (pairs : List (Bytes × Record))
    (ho : ∀ x ∈ pairs, Occurs f.format isVar x.1 x.2) (nl : Bool) (p' : Plan) (hp' : p'.Progress) (json : Bytes → Except Err File)
    (hj : ¬ EarlyBrace (joinRecords nl (first :: (pairs.map (·.1) ++ [last])))) :
    newFileFromReader json p' (joinRecords nl (first :: (pairs.map (·.1) ++ [last]))) false = .ok { f with bases := pairs.map (·.2) } := by
  have hr := C128_assembled p hp raw first last f datas h hl isVar ht pairs ho nl p' hp'
  refine (C102_accepted json p' hp' _ false _).2 ⟨?_, (fun h => absurd h (by decide)), .inr ⟨hj, (C102_reader p' hp' _ _).1 hr⟩⟩
  intro e
  obtain ⟨ps, hps, isVar', first', _, _, _, _, _, e', -⟩ := (C102_reader p' hp' _ _).1 hr
  rw [e] at hps
  cases pieces_unique hps [] (.nil fun a b hab ha => by
    have := ha.1
    rw [(List.append_eq_nil_iff.1 hab.symm).1] at this
    simp [withoutBreaks] at this)
  cases e'

/-- The records of a file occur in it. -/
theorem occurs_self {p : Plan} (hp : p.Progress) {raw first last : Bytes} {f : File} {datas : List Bytes} (h : readFile p raw = .ok f)
    (hl : LinesOf raw f first datas last) {isVar : Bool} (ht : Tells first f.format isVar) :
    ∀ x ∈ datas.zip f.bases, Occurs f.format isVar x.1 x.2 :=
  fun _ hx => ⟨p, raw, f, first, datas, last, hp, h, hl, rfl, ht, hx⟩

theorem zip_fst {α β : Type} {l : List α} {l' : List β} (h : l.length = l'.length) : (l.zip l').map (·.1) = l :=
  List.map_fst_zip (by omega)

theorem zip_snd {α β : Type} {l : List α} {l' : List β} (h : l.length = l'.length) : (l.zip l').map (·.2) = l' :=
  List.map_snd_zip (by omega)

/-- C128. Merging: the data records of a second file, put behind those of the first one, are read behind those of the first one. -/
theorem C128_merged (p : Plan) (hp : p.Progress) (raw first last : Bytes) (f : File) (datas : List Bytes) (h : readFile p raw = .ok f)
    (hl : LinesOf raw f first datas last) (raw' first' last' : Bytes) (f' : File) (datas' : List Bytes) (h' : readFile p raw' = .ok f')
    (hl' : LinesOf raw' f' first' datas' last') (isVar : Bool) (ht : Tells first f.format isVar) (ht' : Tells first' f.format isVar) (nl : Bool)
    (p' : Plan) (hp' : p'.Progress) :
    readFile p' (joinRecords nl (first :: (datas ++ datas' ++ [last]))) = .ok { f with bases := f.bases ++ f'.bases } := by
  have hd : datas.length = f.bases.length := by obtain ⟨ps, rest, -, -, e⟩ := hl; exact e
  have hd' : datas'.length = f'.bases.length := by obtain ⟨ps, rest, -, -, e⟩ := hl'; exact e
  have hf : f.format = f'.format := (lines_read hp h' hl' ht').1
  have := C128_assembled p hp raw first last f datas h hl isVar ht (datas.zip f.bases ++ datas'.zip f'.bases) (by
    intro x hx
    rcases List.mem_append.1 hx with hx | hx
    · exact occurs_self hp h hl ht x hx
    · rw [hf] at ht' ⊢
      exact occurs_self hp h' hl' ht' x hx) nl p' hp'
  rwa [List.map_append, List.map_append, zip_fst hd, zip_fst hd', zip_snd hd, zip_snd hd'] at this

/-- C128. Splitting: a file can be divided behind any of its data records, each part with the header and the trailer of the file. -/
theorem C128_split (p : Plan) (hp : p.Progress) (raw first last : Bytes) (f : File) (datas : List Bytes) (h : readFile p raw = .ok f)
    (hl : LinesOf raw f first datas last) (n : Nat) (nl : Bool) (p' : Plan) (hp' : p'.Progress) :
    readFile p' (joinRecords nl (first :: (datas.take n ++ [last]))) = .ok { f with bases := f.bases.take n } ∧
    readFile p' (joinRecords nl (first :: (datas.drop n ++ [last]))) = .ok { f with bases := f.bases.drop n } := by
  have hd : datas.length = f.bases.length := by obtain ⟨ps, rest, -, -, e⟩ := hl; exact e
  obtain ⟨isVar, ht⟩ : ∃ isVar, Tells first f.format isVar := by
    obtain ⟨ps, rest, hps, hrec, -⟩ := hl
    obtain ⟨qs, hqs, isVar, first', _, _, _, _, _, e, ht, -⟩ := (C102_reader p hp raw f).1 h
    cases pieces_unique hps qs hqs
    rw [hrec, List.cons_append, List.cons.injEq] at e
    exact ⟨isVar, e.1 ▸ ht⟩
  constructor
  · have := C128_assembled p hp raw first last f datas h hl isVar ht ((datas.zip f.bases).take n)
      (fun x hx => occurs_self hp h hl ht x (List.mem_of_mem_take hx)) nl p' hp'
    rwa [List.map_take, List.map_take, zip_fst hd, zip_snd hd] at this
  · have := C128_assembled p hp raw first last f datas h hl isVar ht ((datas.zip f.bases).drop n)
      (fun x hx => occurs_self hp h hl ht x (List.mem_of_mem_drop hx)) nl p' hp'
    rwa [List.map_drop, List.map_drop, zip_fst hd, zip_snd hd] at this

theorem zip_perm {α β : Type} {l k : List α} (hp : l.Perm k) : ∀ l' : List β, l.length = l'.length →
    ∃ k', k'.Perm l' ∧ k.length = k'.length ∧ (k.zip k').Perm (l.zip l') := by
  induction hp with
  | nil => intro l' h; exact ⟨l', .refl _, h, .refl _⟩
  | cons x _ ih =>
    intro l' h
    cases l' with
    | nil => simp at h
    | cons y l' =>
      obtain ⟨k', h1, h2, h3⟩ := ih l' (by simpa using h)
      exact ⟨y :: k', h1.cons _, by simpa using h2, by simpa using h3⟩
  | swap x y l =>
    intro l' h
    match l', h with
    | a :: b :: l', h => exact ⟨b :: a :: l', .swap _ _ _, by simpa using h, by simpa using List.Perm.swap _ _ _⟩
  | trans h1 _ ih1 ih2 =>
    intro l' h
    obtain ⟨k', a1, a2, a3⟩ := ih1 l' h
    obtain ⟨k'', b1, b2, b3⟩ := ih2 k' a2
    exact ⟨k'', b1.trans a1, b2, b3.trans a3⟩

/-- C128. The order of the data records is that of the text, and nothing else depends on it: in any other order of the same texts the same records are
read, the trailer that is generated for them is the same, and the file is valid or not as it was. -/
theorem C128_reordered (p : Plan) (hp : p.Progress) (raw first last : Bytes) (f : File) (datas : List Bytes) (h : readFile p raw = .ok f)
    (hl : LinesOf raw f first datas last) (ds : List Bytes) (hperm : datas.Perm ds) :
    ∃ f', f'.format = f.format ∧ f'.header = f.header ∧ f'.trailer = f.trailer ∧ f'.bases.Perm f.bases ∧
      (∀ nl p', p'.Progress → readFile p' (joinRecords nl (first :: (ds ++ [last]))) = .ok f') ∧ f'.generatorTrailer = f.generatorTrailer ∧
      (f'.validate = none ↔ f.validate = none) := by
  have hd : datas.length = f.bases.length := by obtain ⟨ps, rest, -, -, e⟩ := hl; exact e
  obtain ⟨isVar, ht⟩ : ∃ isVar, Tells first f.format isVar := by
    obtain ⟨ps, rest, hps, hrec, -⟩ := hl
    obtain ⟨qs, hqs, isVar, first', _, _, _, _, _, e, ht, -⟩ := (C102_reader p hp raw f).1 h
    cases pieces_unique hps qs hqs
    rw [hrec, List.cons_append, List.cons.injEq] at e
    exact ⟨isVar, e.1 ▸ ht⟩
  obtain ⟨bs, h1, h2, h3⟩ := zip_perm hperm f.bases hd
  refine ⟨{ f with bases := bs }, rfl, rfl, rfl, h1, fun nl p' hp' => ?_, C35_order rfl h1, ?_⟩
  · have := C128_assembled p hp raw first last f datas h hl isVar ht (ds.zip bs)
      (fun x hx => occurs_self hp h hl ht x (h3.mem_iff.1 hx)) nl p' hp'
    rwa [zip_fst h2, zip_snd h2] at this
  · have hb : ∀ r ∈ f.bases, Spec.IsBase f.format r := (readFile_sound h).1.bases
    rw [C27_validate hb, C27_validate (f := { f with bases := bs }) fun r hr => hb r (h1.mem_iff.1 hr)]
    simp only [h1.mem_iff, total_perm _ h1]

/-- C128. The file that two valid files are merged to is valid, once the trailer is generated, and the totals of its trailer are the sums of the totals of
both trailers (the number of blocks is that of the header, the data records and the trailer, which are there only once). -/
theorem C128_valid (p : Plan) (raw raw' : Bytes) (f f' : File) (h : readFile p raw = .ok f) (h' : readFile p raw' = .ok f')
    (hf : f'.format = f.format) (hv : f.validate = none) (hv' : f'.validate = none) (hne : f.bases ++ f'.bases ≠ []) :
    ∃ t, File.generatorTrailer { f with bases := f.bases ++ f'.bases } = .ok t ∧
      File.setRecord { f with bases := f.bases ++ f'.bases } t = ({ f with bases := f.bases ++ f'.bases, trailer := t }, none) ∧
      File.validate { f with bases := f.bases ++ f'.bases, trailer := t } = none ∧
      ∀ x ∈ Spec.totals, t.fields.int x + (if x = .BlockCount then 2 else 0) = f.trailer.fields.int x + f'.trailer.fields.int x := by
  have hb : ∀ r ∈ f.bases, Spec.IsBase f.format r := (readFile_sound h).1.bases
  have hb' : ∀ r ∈ f'.bases, Spec.IsBase f'.format r := (readFile_sound h').1.bases
  obtain ⟨v1, -, v3, v4⟩ := (C27_validate hb).1 hv
  obtain ⟨-, -, w3, w4⟩ := (C27_validate hb').1 hv'
  obtain ⟨t, h1, h2, h3⟩ := C36_generated_valid (f := { f with bases := f.bases ++ f'.bases })
    (fun r hr => (List.mem_append.1 hr).elim (hb r) fun hr => hf ▸ hb' r hr) hne v1
    (fun r hr => (List.mem_append.1 hr).elim (v3 r) (w3 r))
  refine ⟨t, h1, h2, h3, fun x hx => ?_⟩
  obtain ⟨a, a1, -, -, -, a5⟩ := f.generatorTrailer_spec hb
  obtain ⟨b, b1, -, -, -, b5⟩ := f'.generatorTrailer_spec hb'
  rw [C35_concat rfl a1 b1 h1 hx]
  have e1 : (Record.trailer f.format a).fields.int x = f.trailer.fields.int x := by
    rw [Fields.int, Fields.int, v4 x hx, Record.fields, a5 x hx]
  have e2 : (Record.trailer f'.format b).fields.int x = f'.trailer.fields.int x := by
    rw [Fields.int, Fields.int, w4 x hx, Record.fields, b5 x hx]
  rw [e1, e2]

/-! ### The same blocking is needed -/

theorem linesOf_good {enc : Enc} {isVar : Bool} {f : File} (h : Spec.GoodFile enc isVar f) (hn : ∀ t ∈ Spec.recordTexts f, Spec.NoBreaks t) (nl : Bool) :
    LinesOf (f.string nl) f f.header.string (f.bases.map Record.string) f.trailer.string := by
  obtain ⟨ps, h1, h2, -⟩ := divided_join nl (t := f.header.string) (ts := f.bases.map Record.string ++ [f.trailer.string])
    (goodFile_texts h hn)
  refine ⟨ps, [], ?_, by rw [h2], by simp⟩
  rw [File.string_eq]
  exact h1

/-- The data records of a file with block descriptors behind those of a file without. -/
def Samples.mixedTexts : List Bytes :=
  fixedFile.header.string :: (fixedFile.bases.map Record.string ++ variableFile.bases.map Record.string ++ [fixedFile.trailer.string])

/-- C128. Files of the same format but with another blocking cannot be merged in this way: the records with block descriptors are not read as what they
are. -/
theorem C128_blocking : ∃ raw f first datas last raw' f' first' datas' last', (∀ p : Plan, p.Progress → readFile p raw = .ok f) ∧
    LinesOf raw f first datas last ∧ (∀ p : Plan, p.Progress → readFile p raw' = .ok f') ∧ LinesOf raw' f' first' datas' last' ∧
    f'.format = f.format ∧ ∀ p : Plan, p.Progress →
      readFile p (joinRecords false (first :: (datas ++ datas' ++ [last]))) ≠ .ok { f with bases := f.bases ++ f'.bases } := by
  have hr : ∀ {enc isVar f}, Spec.GoodFile enc isVar f → (∀ t ∈ Spec.recordTexts f, Spec.NoBreaks t) → ∀ p : Plan, p.Progress →
      readFile p (f.string false) = .ok f := by
    intro enc isVar f h hn p hp
    have := readFile_text h hn false [] hp
    rwa [List.append_nil] at this
  have hn := goodFile_noBreaks fixedFile_good
  have hn' := goodFile_noBreaks variableFile_good
  refine ⟨_, fixedFile, _, _, _, _, variableFile, _, _, _, hr fixedFile_good hn, linesOf_good fixedFile_good hn false,
    hr variableFile_good hn', linesOf_good variableFile_good hn' false, rfl, fun p hp h => ?_⟩
  have ht : ∀ u ∈ mixedTexts, RecordText u := by
    intro u hu
    have h1 := goodFile_texts fixedFile_good hn
    have h2 := goodFile_texts variableFile_good hn'
    simp only [mixedTexts, List.mem_cons, List.mem_append, List.not_mem_nil, or_false] at hu
    rcases hu with rfl | (hu | hu) | rfl
    · exact h1 _ (by simp [Spec.recordTexts])
    · exact h1 _ (by simp only [Spec.recordTexts, List.mem_cons, List.mem_append]; exact .inl (.inr hu))
    · exact h2 _ (by simp only [Spec.recordTexts, List.mem_cons, List.mem_append]; exact .inl (.inr hu))
    · exact h1 _ (by simp [Spec.recordTexts])
  rw [joinRecords_flatten] at h
  have h : readLines mixedTexts = _ := (readFile_texts hp ht).symm.trans h
  have hl : (match readLines mixedTexts with
    | .ok f => f.bases.length
    | .error _ => 0) ≠ 4 := by decide +kernel
  rw [h] at hl
  exact hl (by decide)

/-! ### Cases -/

/-- Case of `C128_assembled`, of `C128_opened`, of `C128_split` and of `C128_reordered`: a file with two data records, its text with line feeds. -/
example : readFile slow (fixedFile.string true) = .ok fixedFile ∧
    LinesOf (fixedFile.string true) fixedFile fixedFile.header.string (fixedFile.bases.map Record.string) fixedFile.trailer.string ∧
    Tells fixedFile.header.string fixedFile.format false ∧ fixedFile.bases.length = 2 ∧ ¬ EarlyBrace (fixedFile.string true) := by
  have hn := goodFile_noBreaks fixedFile_good
  have := readFile_text fixedFile_good hn true [] slow_progress
  rw [List.append_nil] at this
  exact ⟨this, linesOf_good fixedFile_good hn true, ⟨by decide +kernel, by decide +kernel⟩, rfl, by decide +kernel⟩

/-- Case of `C128_merged`: a file with itself, so that all its records are there twice. -/
example : readFile atOnce (joinRecords true (fixedFile.header.string ::
    (fixedFile.bases.map Record.string ++ fixedFile.bases.map Record.string ++ [fixedFile.trailer.string]))) =
    .ok { fixedFile with bases := fixedFile.bases ++ fixedFile.bases } := by
  have hn := goodFile_noBreaks fixedFile_good
  have hr := readFile_text fixedFile_good hn true [] slow_progress
  rw [List.append_nil] at hr
  have hl := linesOf_good fixedFile_good hn true
  have ht : Tells fixedFile.header.string fixedFile.format false := ⟨by decide +kernel, by decide +kernel⟩
  exact C128_merged slow slow_progress _ _ _ _ _ hr hl _ _ _ _ _ hr hl false ht ht true atOnce atOnce_progress

/-- Case of `C128_valid`: a file whose trailer has the right totals, with itself. -/
example : ∃ f, (∀ p : Plan, p.Progress → readFile p (f.string true) = .ok f) ∧ f.validate = none ∧ f.bases.length = 1 := by
  have hgood : Spec.GoodFile .character false openFile := by
    refine (C90_fixed openFile (by decide +kernel) (by decide +kernel) true (by decide +kernel) (fun _ => .error .io) atOnce atOnce_progress).1
      (read_of_atOnce (by decide +kernel) (by decide +kernel) (by decide +kernel) _ atOnce_progress)
  obtain ⟨t, h1, -, h3⟩ := C92_good .character false openFile (goodBody_of hgood) (by decide) (by decide +kernel)
  refine ⟨_, fun p hp => ?_, (generated_verdict (body_bases (goodBody_of hgood)) (by decide) h1).2 ⟨by decide +kernel, by decide +kernel⟩, rfl⟩
  have := readFile_text h3 (goodFile_noBreaks h3) true [] hp
  rwa [List.append_nil] at this

/-- Case of `C128_blocking`: without the records of the other file the rest is read. -/
example : (readLines [fixedFile.header.string, fixedFile.trailer.string]).toOption.isSome = true := by decide +kernel

end Metro2
