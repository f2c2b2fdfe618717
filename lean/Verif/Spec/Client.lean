import Verif.Model.Client
import Verif.Spec.Json
import Verif.Spec.ClientTime

/-!
What the client takes from a document of the service and the service from a document of the client, field by field, without keys or texts.
-/

namespace Metro2.Spec

/-! ### From the service to the client -/

/-- The value is a number or text that the service leaves out. -/
def blank : Val → Bool
  | .int i => i == 0
  | .str s => s.isEmpty
  | .time _ => false

/-- The zero value of a field of the client. -/
def clientZero (d : FieldDecl) : Option Val := if d.omitempty then none else some d.kind.zero

/-- A value of the service in a field of the client; `none`: it cannot be taken. Numbers must fit; there is no text for the zero time that the client
could read; other times arrive as in JSON. -/
def clientValue (k : Kind) : Val → Option Val
  | .int i => if k = .int ∧ (i < -2147483648 ∨ 2147483647 < i) then none else some (.int i)
  | .str s => some (.str s)
  | .time t => if t.isZero then none else some (.time (jsonTime t))

/-- What field `f` of a client type `client` holds after reading a value `fs` of the service type `service`; the outer `none`: the document is refused. -/
def clientTakes (service client : List (F × FieldDecl)) (fs : Fields) (f : F) : Option (Option Val) :=
  match client.lookup f with
  | none => some none
  | some d =>
    match service.lookup f, fs.get f with
    | some e, some v => if e.omitempty && blank v then some (clientZero d) else (clientValue d.kind v).map some
    | _, _ => some (clientZero d)

/-- A whole value of a client type: refused if one field is. -/
def clientRec (service client : List (F × FieldDecl)) (fs : Fields) : Option ClientRec :=
  if ∀ p ∈ client, clientTakes service client fs p.1 ≠ none then some fun f => (clientTakes service client fs f).join else none

/-- A segment. -/
def clientSeg (s : Seg) : Option ClientRec := clientRec s.kind.struct (clientSegment s.kind) s.fields

/-- An optional segment. -/
def clientSeg? : Option Seg → Option (Option ClientRec)
  | none => some none
  | some s => (clientSeg s).map some

/-- A data record. -/
def clientData (fs : Fields) (g : Segs) : Option ClientData := do
  let base ← clientRec baseSegmentStruct clientBaseSegment fs
  let j1 ← g.j1.mapM clientSeg
  let j2 ← g.j2.mapM clientSeg
  let k1 ← clientSeg? g.k1
  let k2 ← clientSeg? g.k2
  let k3 ← clientSeg? g.k3
  let k4 ← clientSeg? g.k4
  let l1 ← clientSeg? g.l1
  let n1 ← clientSeg? g.n1
  some ⟨base, j1, j2, k1, k2, k3, k4, l1, n1⟩

/-- A data record of a file. -/
def clientBase : Record → Option ClientData
  | .base _ fs g => clientData fs g
  | _ => none

/-- A file. -/
def clientFile (f : File) : Option ClientFile := do
  let header ← clientRec headerRecordStruct clientHeaderRecord f.header.fields
  let data ← f.bases.mapM clientBase
  let trailer ← clientRec trailerRecordStruct clientTrailerRecord f.trailer.fields
  some ⟨header, data, trailer⟩

/-- The value can be written by the service: a number of 64 bits, a well-formed text, the zero time or an existing time. -/
def WrittenVal : Val → Prop
  | .int i => -(2 ^ 63) ≤ i ∧ i < 2 ^ 63
  | .str s => Utf8 s
  | .time t => t.isZero = true ∨ (ExistingTime t ∧ t.loc.offset.natAbs < 86400)

/-- All values of a struct. -/
def WrittenFields (decl : List (F × FieldDecl)) (fs : Fields) : Prop := fs.Typed decl ∧ ∀ p ∈ fs, WrittenVal p.2

/-- All values of a data record; the segments are in their places. -/
structure WrittenBase (fs : Fields) (g : Segs) : Prop where
  base : WrittenFields baseSegmentStruct fs
  j1 : ∀ s ∈ g.j1, s.kind = .j1 ∧ WrittenFields s.kind.struct s.fields
  j2 : ∀ s ∈ g.j2, s.kind = .j2 ∧ WrittenFields s.kind.struct s.fields
  k1 : ∀ s, g.k1 = some s → s.kind = .k1 ∧ WrittenFields s.kind.struct s.fields
  k2 : ∀ s, g.k2 = some s → s.kind = .k2 ∧ WrittenFields s.kind.struct s.fields
  k3 : ∀ s, g.k3 = some s → s.kind = .k3 ∧ WrittenFields s.kind.struct s.fields
  k4 : ∀ s, g.k4 = some s → s.kind = .k4 ∧ WrittenFields s.kind.struct s.fields
  l1 : ∀ s, g.l1 = some s → s.kind = .l1 ∧ WrittenFields s.kind.struct s.fields
  n1 : ∀ s, g.n1 = some s → s.kind = .n1 ∧ WrittenFields s.kind.struct s.fields

/-- All values of a file. -/
structure WrittenFile (f : File) : Prop where
  header : ∃ enc fs, f.header = .header enc fs ∧ WrittenFields headerRecordStruct fs
  bases : ∀ r ∈ f.bases, ∃ enc fs g, r = .base enc fs g ∧ WrittenBase fs g
  trailer : ∃ enc fs, f.trailer = .trailer enc fs ∧ WrittenFields trailerRecordStruct fs

/-! ### From the client to the service -/

/-- The value can be sent by the client: a number that passes through `float64`, a well-formed text, or a time in a zone of whole minutes. -/
def SentVal : Val → Prop
  | .int i => -(2 ^ 53) ≤ i ∧ i ≤ 2 ^ 53
  | .str s => Utf8 s
  | .time t => SentWhole t

/-- A value of a client type: pointers may be nil, values have the kind of their field and can be carried by JSON. -/
def ClientOk (client : List (F × FieldDecl)) (c : ClientRec) : Prop :=
  ∀ p ∈ client, match c p.1 with
    | none => p.2.omitempty = true
    | some v => v.hasKind p.2.kind = true ∧ SentVal v

/-- What the service makes of it: fields that the client sends are taken, the others stay as in a new record. -/
def serviceFields (client : List (F × FieldDecl)) (fs0 : Fields) (c : ClientRec) : Fields :=
  fs0.map fun p => (p.1, match client.lookup p.1, c p.1 with
    | some _, some v => v
    | _, _ => p.2)

/-- A segment. -/
def serviceSeg (k : SegKind) (c : ClientRec) : Seg := ⟨k, serviceFields (clientSegment k) (Seg.new k).fields c⟩

/-- The segments of a data record. -/
def serviceSegs (d : ClientData) : Segs where
  j1 := d.j1.map (serviceSeg .j1)
  j2 := d.j2.map (serviceSeg .j2)
  k1 := d.k1.map (serviceSeg .k1)
  k2 := d.k2.map (serviceSeg .k2)
  k3 := d.k3.map (serviceSeg .k3)
  k4 := d.k4.map (serviceSeg .k4)
  l1 := d.l1.map (serviceSeg .l1)
  n1 := d.n1.map (serviceSeg .n1)

/-- A data record. -/
def serviceBase (enc : Enc) (d : ClientData) : Record :=
  .base enc (serviceFields clientBaseSegment (zeroFields baseSegmentStruct) d.base) (serviceSegs d)

/-- A file, read in format `enc`. -/
def serviceFile (enc : Enc) (f : ClientFile) : File :=
  ⟨enc, .header enc (serviceFields clientHeaderRecord (newHeader enc).fields f.header), f.data.map (serviceBase enc),
    .trailer enc (serviceFields clientTrailerRecord (newTrailer enc).fields f.trailer)⟩

/-- A number of a client type; 0 if it is not sent. -/
def clientNumber (c : ClientRec) (f : F) : Int :=
  match c f with
  | some (.int i) => i
  | _ => 0

/-- The format of a file of the client, as C49 has it. -/
def clientFormat (f : ClientFile) : Enc :=
  if clientNumber f.header .RecordDescriptorWord = 426 ∨ clientNumber f.header .BlockDescriptorWord ≤ 0 then .character else .packed

/-- Everything in the data record is well-formed, and the segments are accepted by `Validate`. -/
structure ClientDataOk (d : ClientData) : Prop where
  base : ClientOk clientBaseSegment d.base
  j1 : ∀ c ∈ d.j1, ClientOk clientJ1Segment c ∧ (serviceSeg .j1 c).validate = none
  j2 : ∀ c ∈ d.j2, ClientOk clientJ2Segment c ∧ (serviceSeg .j2 c).validate = none
  k1 : ∀ c, d.k1 = some c → ClientOk clientK1Segment c ∧ (serviceSeg .k1 c).validate = none
  k2 : ∀ c, d.k2 = some c → ClientOk clientK2Segment c ∧ (serviceSeg .k2 c).validate = none
  k3 : ∀ c, d.k3 = some c → ClientOk clientK3Segment c ∧ (serviceSeg .k3 c).validate = none
  k4 : ∀ c, d.k4 = some c → ClientOk clientK4Segment c ∧ (serviceSeg .k4 c).validate = none
  l1 : ∀ c, d.l1 = some c → ClientOk clientL1Segment c ∧ (serviceSeg .l1 c).validate = none
  n1 : ∀ c, d.n1 = some c → ClientOk clientN1Segment c ∧ (serviceSeg .n1 c).validate = none

/-- Everything in the file. -/
structure ClientFileOk (f : ClientFile) : Prop where
  header : ClientOk clientHeaderRecord f.header
  data : ∀ d ∈ f.data, ClientDataOk d
  trailer : ClientOk clientTrailerRecord f.trailer

/-! ### There and back -/

/-- The value can be held by a field of kind `k` of the client: `int32` numbers fit, and there is a date. -/
def ClientHolds (k : Kind) : Val → Prop
  | .int i => k = .int → -2147483648 ≤ i ∧ i ≤ 2147483647
  | .str _ => True
  | .time t => t.isZero = false

/-- All values of fields that the client knows can be held by it. -/
def Held (client : List (F × FieldDecl)) (fs : Fields) : Prop := ∀ p ∈ client, ∀ v, fs.get p.1 = some v → ClientHolds p.2.kind v

/-- All values of a data record. -/
structure HeldBase (fs : Fields) (g : Segs) : Prop where
  base : Held clientBaseSegment fs
  segs : ∀ s ∈ g.list, Held (clientSegment s.kind) s.fields

/-- All values of a file. -/
structure HeldFile (f : File) : Prop where
  header : Held clientHeaderRecord f.header.fields
  bases : ∀ enc fs g, .base enc fs g ∈ f.bases → HeldBase fs g
  trailer : Held clientTrailerRecord f.trailer.fields

/-- The fields of the service that the client does not know. -/
def lost (f : F) : Bool := f = .ProcessingIndicator || f = .CorrectionIndicator || f = .NewIdentificationNumber

/-- What remains of a value of such a field. -/
def emptied : Val → Val
  | .int _ => .int 0
  | .str _ => .str []
  | .time t => .time t

/-- A struct without the values of these fields. -/
def forget (fs : Fields) : Fields := fs.map fun p => (p.1, if lost p.1 then emptied p.2 else p.2)

/-- A segment. -/
def forgetSeg (s : Seg) : Seg := { s with fields := forget s.fields }

/-- The segments of a data record: only L1 has such a field. -/
def forgetSegs (g : Segs) : Segs := { g with l1 := g.l1.map forgetSeg }

/-- A data record. -/
def forgetRecord : Record → Record
  | .base enc fs g => .base enc (forget fs) (forgetSegs g)
  | r => r

/-- A file. -/
def forgetFile (f : File) : File := { f with bases := f.bases.map forgetRecord }

/-- None of these fields has a value. -/
def NothingLost (f : File) : Prop := ∀ enc fs g, .base enc fs g ∈ f.bases →
  (∀ p ∈ fs, lost p.1 = true → p.2 = emptied p.2) ∧ ∀ s, g.l1 = some s → ∀ p ∈ s.fields, lost p.1 = true → p.2 = emptied p.2

/-! ### What the client shows -/

/-- The getters show the values of the fields that the client knows. -/
def ShowsRec (client : List (F × FieldDecl)) (fs : Fields) (c : ClientRec) : Prop := ∀ p ∈ client, ∀ v, fs.get p.1 = some v → c.get p = v

/-- A segment. -/
def ShowsSeg (s : Seg) (c : ClientRec) : Prop := ShowsRec (clientSegment s.kind) s.fields c

/-- Two lists of the same length, in the same order. -/
def Paired {α β : Type} (P : α → β → Prop) : List α → List β → Prop
  | [], [] => True
  | a :: as, b :: bs => P a b ∧ Paired P as bs
  | _, _ => False

/-- An optional segment. -/
def ShowsSeg? : Option Seg → Option ClientRec → Prop
  | none, none => True
  | some s, some c => ShowsSeg s c
  | _, _ => False

/-- A data record. -/
structure ShowsData (fs : Fields) (g : Segs) (d : ClientData) : Prop where
  base : ShowsRec clientBaseSegment fs d.base
  j1 : Paired ShowsSeg g.j1 d.j1
  j2 : Paired ShowsSeg g.j2 d.j2
  k1 : ShowsSeg? g.k1 d.k1
  k2 : ShowsSeg? g.k2 d.k2
  k3 : ShowsSeg? g.k3 d.k3
  k4 : ShowsSeg? g.k4 d.k4
  l1 : ShowsSeg? g.l1 d.l1
  n1 : ShowsSeg? g.n1 d.n1

/-- A file. -/
structure ShowsFile (f : File) (c : ClientFile) : Prop where
  header : ShowsRec clientHeaderRecord f.header.fields c.header
  data : Paired (fun r d => ∃ enc fs g, r = .base enc fs g ∧ ShowsData fs g d) f.bases c.data
  trailer : ShowsRec clientTrailerRecord f.trailer.fields c.trailer

end Metro2.Spec
