import Verif.Go.Basic

/-!
Code lists used by the field validators, with the values of the constants of
/repo/pkg/lib/constants.go:12-494. Produced by a script from the `case` lists in the Go text.
-/

namespace Metro2

/-- Values accepted by `(r *BaseSegment) ValidateCorrectionIndicator`, /repo/pkg/lib/base_segment.go:814-820. -/
def correctionIndicators : List Int := [0, 1]

/-- Values accepted by `(r *BaseSegment) ValidatePortfolioType`, /repo/pkg/lib/base_segment.go:831-837. -/
def portfolioTypes : List Bytes := [b! "C", b! "I", b! "M", b! "O", b! "R", b! "L"]

/-- Values accepted by `(r *BaseSegment) ValidateTermsDuration`, /repo/pkg/lib/base_segment.go:840-850. -/
def termsDurations : List Bytes := [b! "LOC", b! "001", b! "REV"]

/-- Values accepted by `(r *BaseSegment) ValidateTermsFrequency`, /repo/pkg/lib/base_segment.go:853-861. -/
def termsFrequencies : List Bytes := [b! "D", b! "P", b! "W", b! "B", b! "E", b! "M", b! "L",
  b! "Q", b! "T", b! "S", b! "Y", []]

/-- Values accepted by `(r *BaseSegment) ValidatePaymentRating` (account statuses that need a payment rating), /repo/pkg/lib/base_segment.go:864-879. -/
def ratedStatuses : List Bytes := [b! "05", b! "13", b! "65", b! "88", b! "89", b! "94",
  b! "95"]

/-- Values accepted by `(r *BaseSegment) ValidatePaymentRating` (payment ratings), /repo/pkg/lib/base_segment.go:864-879. -/
def paymentRatings : List Bytes := [b! "0", b! "1", b! "2", b! "3", b! "4", b! "5", b! "6",
  b! "G", b! "L"]

/-- Values accepted by `(r *BaseSegment) ValidatePaymentHistoryProfile`, /repo/pkg/lib/base_segment.go:882-898. -/
def paymentHistoryCodes : List UInt8 := [48, 49, 50, 51, 52, 53, 54, 66, 68, 69, 71, 72, 74,
  75, 76, 90, 32]

/-- Values accepted by `(r *PackedBaseSegment) ValidatePaymentHistoryProfile`, /repo/pkg/lib/base_segment.go:1396-1412. -/
def packedPaymentHistoryCodes : List UInt8 := [48, 49, 50, 51, 52, 53, 54, 66, 68, 69, 71, 72,
  74, 75, 76, 32]

/-- Values accepted by `(r *BaseSegment) ValidateInterestTypeIndicator`, /repo/pkg/lib/base_segment.go:901-907. -/
def interestTypes : List Bytes := [b! "F", b! "V", []]

/-- Values accepted by `(r *BaseSegment) ValidateAccountStatus`, /repo/pkg/lib/base_segment.go:942-952. -/
def accountStatuses : List Bytes := [b! "DF", b! "DA", b! "11", b! "61", b! "62", b! "63",
  b! "64", b! "71", b! "78", b! "80", b! "82", b! "83", b! "84", b! "93", b! "96", b! "97",
  b! "05", b! "13", b! "65", b! "88", b! "89", b! "94", b! "95"]

/-- Values accepted by `(r *BaseSegment) ValidateAccountType`, /repo/pkg/lib/base_segment.go:955-969. -/
def accountTypes : List Bytes := [b! "00", b! "01", b! "02", b! "03", b! "04", b! "05",
  b! "06", b! "07", b! "08", b! "0A", b! "0C", b! "0F", b! "0G", b! "10", b! "11", b! "12",
  b! "13", b! "15", b! "17", b! "18", b! "19", b! "20", b! "25", b! "26", b! "29", b! "2A",
  b! "2C", b! "37", b! "3A", b! "43", b! "47", b! "48", b! "4D", b! "50", b! "5A", b! "5B",
  b! "65", b! "66", b! "67", b! "68", b! "69", b! "6A", b! "6B", b! "6D", b! "70", b! "71",
  b! "72", b! "73", b! "74", b! "75", b! "77", b! "7A", b! "7B", b! "89", b! "8A", b! "8B",
  b! "90", b! "91", b! "92", b! "93", b! "95", b! "9A", b! "9B"]

/-- Values accepted by `(r *BaseSegment) ValidateSpecialComment`, /repo/pkg/lib/base_segment.go:972-989. -/
def specialComments : List Bytes := [[], b! "B", b! "C", b! "H", b! "I", b! "M", b! "O",
  b! "S", b! "V", b! "AB", b! "AC", b! "AH", b! "AI", b! "AM", b! "AN", b! "AO", b! "AP",
  b! "AS", b! "AT", b! "AU", b! "AV", b! "AW", b! "AX", b! "AZ", b! "BA", b! "BB", b! "BC",
  b! "BD", b! "BE", b! "BF", b! "BG", b! "BH", b! "BI", b! "BJ", b! "BK", b! "BL", b! "BN",
  b! "BO", b! "BP", b! "BS", b! "BT", b! "CH", b! "CI", b! "CJ", b! "CK", b! "CL", b! "CM",
  b! "CN", b! "CO", b! "CP", b! "CS", b! "DE"]

/-- Values accepted by `(s *J1Segment) ValidateGenerationCode`, /repo/pkg/lib/j1_segment.go:159-166. -/
def generationCodes : List Bytes := [b! "J", b! "S", b! "2", b! "3", b! "4", b! "5", b! "6",
  b! "7", b! "8", b! "9", []]

/-- Values accepted by `(s *J2Segment) ValidateGenerationCode`, /repo/pkg/lib/j2_segment.go:215-222. -/
def j2GenerationCodes : List Bytes := [b! "J", b! "S", b! "2", b! "3", b! "4", b! "5", b! "6",
  b! "7", b! "8", b! "9", []]

/-- Values accepted by `(s *J2Segment) ValidateAddressIndicator`, /repo/pkg/lib/j2_segment.go:233-241. -/
def addressIndicators : List Bytes := [b! "C", b! "Y", b! "N", b! "M", b! "S", b! "B", b! "U",
  b! "D", b! "P", b! " ", []]

/-- Values accepted by `(s *J2Segment) ValidateResidenceCode`, /repo/pkg/lib/j2_segment.go:244-250. -/
def residenceCodes : List Bytes := [b! "O", b! "R", b! " ", []]

/-- Values accepted by `(s *K1Segment) ValidateCreditorClassification`, /repo/pkg/lib/kn_segment.go:114-124. -/
def creditorClassifications : List Int := [1, 2, 3, 4, 5, 6, 7, 8, 9, 10, 11, 12, 13, 14, 15]

/-- Values accepted by `(s *K2Segment) ValidatePurchasedIndicator`, /repo/pkg/lib/kn_segment.go:195-201. -/
def purchasedIndicators : List Int := [1, 2, 9]

/-- Values accepted by `(s *K3Segment) ValidateAgencyIdentifier`, /repo/pkg/lib/kn_segment.go:288-294. -/
def agencyIdentifiers : List Int := [0, 1, 2]

/-- Values accepted by `(s *K4Segment) ValidateSpecializedPaymentIndicator`, /repo/pkg/lib/kn_segment.go:382-388. -/
def specializedPaymentIndicators : List Int := [1, 2]

/-- Values accepted by `(s *L1Segment) ValidateChangeIndicator`, /repo/pkg/lib/l1_segment.go:92-98. -/
def changeIndicators : List Int := [1, 2, 3]

end Metro2
