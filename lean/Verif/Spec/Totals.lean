import Verif.Spec.Records

/-! The trailer totals, stated as counts of data records and segments with a given characteristic. -/

namespace Metro2.Spec

/-- The account status that each status total counts. -/
def statusTotals : List (F × List UInt8) := [
  (.TotalStatusCodeDF, "DF".toUTF8.data.toList), (.TotalStatusCodeDA, "DA".toUTF8.data.toList),
  (.TotalStatusCode05, "05".toUTF8.data.toList), (.TotalStatusCode11, "11".toUTF8.data.toList),
  (.TotalStatusCode13, "13".toUTF8.data.toList), (.TotalStatusCode61, "61".toUTF8.data.toList),
  (.TotalStatusCode62, "62".toUTF8.data.toList), (.TotalStatusCode63, "63".toUTF8.data.toList),
  (.TotalStatusCode64, "64".toUTF8.data.toList), (.TotalStatusCode65, "65".toUTF8.data.toList),
  (.TotalStatusCode71, "71".toUTF8.data.toList), (.TotalStatusCode78, "78".toUTF8.data.toList),
  (.TotalStatusCode80, "80".toUTF8.data.toList), (.TotalStatusCode82, "82".toUTF8.data.toList),
  (.TotalStatusCode83, "83".toUTF8.data.toList), (.TotalStatusCode84, "84".toUTF8.data.toList),
  (.TotalStatusCode88, "88".toUTF8.data.toList), (.TotalStatusCode89, "89".toUTF8.data.toList),
  (.TotalStatusCode93, "93".toUTF8.data.toList), (.TotalStatusCode94, "94".toUTF8.data.toList),
  (.TotalStatusCode95, "95".toUTF8.data.toList), (.TotalStatusCode96, "96".toUTF8.data.toList),
  (.TotalStatusCode97, "97".toUTF8.data.toList)]

/-- All totals of a trailer: its fields other than the descriptor word and the identifier. -/
def totals : List F := statusTotals.map Prod.fst ++ [
  .TotalBaseRecords, .BlockCount, .TotalConsumerSegmentsJ1, .TotalConsumerSegmentsJ2, .TotalECOACodeZ,
  .TotalEmploymentSegments, .TotalOriginalCreditorSegments, .TotalPurchasedToSegments,
  .TotalMortgageInformationSegments, .TotalPaymentInformationSegments, .TotalChangeSegments,
  .TotalSocialNumbersAllSegments, .TotalSocialNumbersBaseSegments, .TotalSocialNumbersJ1Segments,
  .TotalSocialNumbersJ2Segments, .TotalDatesBirthAllSegments, .TotalDatesBirthBaseSegments,
  .TotalDatesBirthJ1Segments, .TotalDatesBirthJ2Segments, .TotalTelephoneNumbersAllSegments]

/-- 1 or 0. -/
def one (p : Prop) [Decidable p] : Nat := if p then 1 else 0

/-- A social security number that counts: not zero- or nine-filled. -/
abbrev Ssn (fs : Fields) : Prop := 0 < fs.int .SocialSecurityNumber ∧ fs.int .SocialSecurityNumber < 999999999
/-- A date of birth is given. -/
abbrev Birth (fs : Fields) : Prop := (fs.time .DateBirth).isZero = false
/-- A telephone number is given. -/
abbrev Phone (fs : Fields) : Prop := 0 < fs.int .TelephoneNumber
/-- The ECOA code is Z. -/
abbrev EcoaZ (fs : Fields) : Prop := fs.str .ECOACode = "Z".toUTF8.data.toList

/-- The segments of a data record that are kept for type `k`. -/
def segments (g : Segs) : SegKind → List Seg
  | .j1 => g.j1 | .j2 => g.j2 | .k1 => g.k1.toList | .k2 => g.k2.toList | .k3 => g.k3.toList
  | .k4 => g.k4.toList | .l1 => g.l1.toList | .n1 => g.n1.toList

/-- Number of segments of type `k` with a given characteristic. -/
def countSegs (g : Segs) (k : SegKind) (p : Seg → Bool) : Nat :=
  (segments g k).countP fun s => decide (s.kind = k) && p s

/-- Number of valid segments of type `k` with a given characteristic. -/
def countValid (g : Segs) (k : SegKind) (p : Fields → Bool) : Nat :=
  countSegs g k fun s => decide (s.validate = none) && p s.fields

/-- What a data record with values `fs` and segments `g` contributes to a total. -/
def weight (f : F) (fs : Fields) (g : Segs) : Nat :=
  match f with
  | .TotalBaseRecords => 1
  | .BlockCount => 1
  | .TotalConsumerSegmentsJ1 => countValid g .j1 fun _ => true
  | .TotalConsumerSegmentsJ2 => countValid g .j2 fun _ => true
  | .TotalECOACodeZ => one (EcoaZ fs) + countSegs g .j1 (fun s => decide (EcoaZ s.fields)) +
      countSegs g .j2 (fun s => decide (EcoaZ s.fields))
  | .TotalEmploymentSegments => countSegs g .n1 fun s => decide (s.fields.str .EmployerName ≠ [])
  | .TotalOriginalCreditorSegments => countSegs g .k1 fun s => decide (s.fields.str .OriginalCreditorName ≠ [])
  | .TotalPurchasedToSegments => countSegs g .k2 fun s =>
      decide (s.fields.int .PurchasedIndicator = 1 ∨ s.fields.int .PurchasedIndicator = 2)
  | .TotalMortgageInformationSegments => countSegs g .k3 fun s => decide (s.fields.int .AgencyIdentifier = 0)
  | .TotalPaymentInformationSegments => countSegs g .k4 fun s =>
      decide (s.fields.int .SpecializedPaymentIndicator = 1 ∨ s.fields.int .SpecializedPaymentIndicator = 2)
  | .TotalChangeSegments => countSegs g .l1 fun s =>
      decide (s.fields.int .ChangeIndicator = 1 ∨ s.fields.int .ChangeIndicator = 2 ∨
        s.fields.int .ChangeIndicator = 3)
  | .TotalSocialNumbersAllSegments => one (Ssn fs) + countValid g .j1 (fun s => decide (Ssn s)) +
      countValid g .j2 (fun s => decide (Ssn s))
  | .TotalSocialNumbersBaseSegments => one (Ssn fs)
  | .TotalSocialNumbersJ1Segments => countValid g .j1 fun s => decide (Ssn s)
  | .TotalSocialNumbersJ2Segments => countValid g .j2 fun s => decide (Ssn s)
  | .TotalDatesBirthAllSegments => one (Birth fs) + countValid g .j1 (fun s => decide (Birth s)) +
      countValid g .j2 (fun s => decide (Birth s))
  | .TotalDatesBirthBaseSegments => one (Birth fs)
  | .TotalDatesBirthJ1Segments => countValid g .j1 fun s => decide (Birth s)
  | .TotalDatesBirthJ2Segments => countValid g .j2 fun s => decide (Birth s)
  | .TotalTelephoneNumbersAllSegments => one (Phone fs) + countValid g .j1 (fun s => decide (Phone s)) +
      countValid g .j2 (fun s => decide (Phone s))
  | f => match statusTotals.lookup f with
    | some code => one (fs.str .AccountStatus = code)
    | none => 0

/-- The contribution of a record; only data records contribute. -/
def weightOf (f : F) : Record → Nat
  | .base _ fs g => weight f fs g
  | _ => 0

/-- A total over a list of data records. The block count includes header and trailer. -/
def total (f : F) (bases : List Record) : Nat :=
  (bases.map (weightOf f)).sum + if f = .BlockCount then 2 else 0

/-- The record is a data record of the format. -/
def IsBase (enc : Enc) (r : Record) : Prop := ∃ fs g, r = .base enc fs g

end Metro2.Spec
