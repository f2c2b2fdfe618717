import Verif.Go.Basic

/-! The test data of the repository, as lists of bytes. Written by tools/testdata.py from /repo/test/testdata. -/

namespace Metro2.TestData

/-- /repo/test/testdata/base_segment.dat, 1285 bytes. -/
def baseSegmentDat : Bytes := List.flatten [
  b! "1268\n126410101202001112206666666               553723456                     M4811222\n01900000000000",
  b! "0002438LOC 00000000000000010062 BBBBBBBBBBBBBBBBBBBBBBBBASXA000002\n233000000000000000000092020020719",
  b! "20010802200208022002                  SMITH-JON\nES              JUNIOR                              ",
  b! "    S15932875903181972517555\n55551  USRMXH+6W Casper, Wyoming,        United States                 ",
  b! "  U.S. Po\nstal         MI72654    YO\nJ1 BEAUCHAMP                KEVIN                              ",
  b! "     S4451128770102202043355523332R  \nJ2 BEAUCHAMP                KEVIN                             ",
  b! "      S4451128770102202043355523332R U\nS234 HARRISON PLACE              SUITE #305                  ",
  b! "    LANSING             MI72654    YO  \nJ2 BEAUCHAMP                KEVIN                           ",
  b! "        S4451128770102202043355523332R U\nS234 HARRISON PLACE              SUITE #305                ",
  b! "      LANSING             MI72654    YO  \nK1WETCOSAT INDUSTRIES LTD.      04\nK21Purchased From Name ",
  b! "           \nK300                  Mortgage Number   \nK4010120202001202020000001234 \nL11New Consumer ",
  b! "Account Number                        \nN1Employer Name                 First Line of Employer Addres",
  b! "s  Second Line of Employer Address Employer City       MI23456    Occupation         "]

/-- /repo/test/testdata/base_segment.json, 3813 bytes. -/
def baseSegmentJson : Bytes := List.flatten [
  b! "{\n  \"base\": {\n    \"blockDescriptorWord\": 1268,\n    \"recordDescriptorWord\": 1264,\n    \"processingIndi",
  b! "cator\": 1,\n    \"timeStamp\": \"2020-01-01T01:11:22Z\",\n    \"identificationNumber\": \"6666666\",\n    \"cons",
  b! "umerAccountNumber\": \"553723456\",\n    \"portfolioType\": \"M\",\n    \"accountType\": \"48\",\n    \"dateOpened\"",
  b! ": \"2019-11-22T00:00:00Z\",\n    \"highestCredit\": 2438,\n    \"termsDuration\": \"LOC\",\n    \"actualPaymentA",
  b! "mount\": 100,\n    \"accountStatus\": \"62\",\n    \"paymentHistoryProfile\": \"BBBBBBBBBBBBBBBBBBBBBBBB\",\n   ",
  b! " \"specialComment\": \"AS\",\n    \"complianceConditionCode\": \"XA\",\n    \"currentBalance\": 2233,\n    \"dateA",
  b! "ccountInformation\": \"2002-09-20T00:00:00Z\",\n    \"dateFirstDelinquency\": \"2001-07-19T00:00:00Z\",\n    ",
  b! "\"dateClosed\": \"2002-08-02T00:00:00Z\",\n    \"dateLastPayment\": \"2002-08-02T00:00:00Z\",\n    \"interestTy",
  b! "peIndicator\": \"\",\n    \"surname\": \"SMITH-JONES\",\n    \"firstName\": \"JUNIOR\",\n    \"generationCode\": \"S\"",
  b! ",\n    \"socialSecurityNumber\": 159328759,\n    \"dateBirth\": \"1972-03-18T00:00:00Z\",\n    \"telephoneNumb",
  b! "er\": 5175555555,\n    \"ecoaCode\": \"1\",\n    \"countryCode\": \"US\",\n    \"firstLineAddress\": \"RMXH+6W Casp",
  b! "er, Wyoming,\",\n    \"secondLineAddress\": \"United States\",\n    \"city\": \"U.S. Postal\",\n    \"state\": \"MI",
  b! "\",\n    \"zipCode\": \"72654\",\n    \"addressIndicator\": \"Y\",\n    \"residenceCode\": \"O\"\n  },\n  \"j1\": [\n    ",
  b! "{\n      \"segmentIdentifier\": \"J1\",\n      \"surname\": \"BEAUCHAMP\",\n      \"firstName\": \"KEVIN\",\n      \"",
  b! "generationCode\": \"S\",\n      \"socialSecurityNumber\": 445112877,\n      \"dateBirth\": \"2020-01-02T00:00:",
  b! "00Z\",\n      \"telephoneNumber\": 4335552333,\n      \"ecoaCode\": \"2\",\n      \"consumerInformationIndicato",
  b! "r\": \"R\"\n    }\n  ],\n  \"j2\": [\n    {\n      \"segmentIdentifier\": \"J2\",\n      \"surname\": \"BEAUCHAMP\",\n  ",
  b! "    \"firstName\": \"KEVIN\",\n      \"generationCode\": \"S\",\n      \"socialSecurityNumber\": 445112877,\n    ",
  b! "  \"dateBirth\": \"2020-01-02T00:00:00Z\",\n      \"telephoneNumber\": 4335552333,\n      \"ecoaCode\": \"2\",\n ",
  b! "     \"consumerInformationIndicator\": \"R\",\n      \"countryCode\": \"US\",\n      \"firstLineAddress\": \"234 ",
  b! "HARRISON PLACE\",\n      \"secondLineAddress\": \"SUITE #305\",\n      \"city\": \"LANSING\",\n      \"state\": \"M",
  b! "I\",\n      \"zipCode\": \"72654\",\n      \"addressIndicator\": \"Y\",\n      \"residenceCode\": \"O\"\n    },\n    {",
  b! "\n      \"segmentIdentifier\": \"J2\",\n      \"surname\": \"BEAUCHAMP\",\n      \"firstName\": \"KEVIN\",\n      \"g",
  b! "enerationCode\": \"S\",\n      \"socialSecurityNumber\": 445112877,\n      \"dateBirth\": \"2020-01-02T00:00:0",
  b! "0Z\",\n      \"telephoneNumber\": 4335552333,\n      \"ecoaCode\": \"2\",\n      \"consumerInformationIndicator",
  b! "\": \"R\",\n      \"countryCode\": \"US\",\n      \"firstLineAddress\": \"234 HARRISON PLACE\",\n      \"secondLine",
  b! "Address\": \"SUITE #305\",\n      \"city\": \"LANSING\",\n      \"state\": \"MI\",\n      \"zipCode\": \"72654\",\n    ",
  b! "  \"addressIndicator\": \"Y\",\n      \"residenceCode\": \"O\"\n    }\n  ],\n  \"k1\": {\n    \"segmentIdentifier\": ",
  b! "\"K1\",\n    \"originalCreditorName\": \"WETCOSAT INDUSTRIES LTD.\",\n    \"creditorClassification\": 4\n  },\n ",
  b! " \"k2\": {\n    \"segmentIdentifier\": \"K2\",\n    \"purchasedIndicator\": 1,\n    \"purchasedName\": \"Purchased",
  b! " From Name\"\n  },\n  \"k3\": {\n    \"segmentIdentifier\": \"K3\",\n    \"mortgageIdentificationNumber\": \"Mortg",
  b! "age Number\"\n  },\n  \"k4\": {\n    \"segmentIdentifier\": \"K4\",\n    \"specializedPaymentIndicator\": 1,\n    ",
  b! "\"deferredPaymentStartDate\": \"2020-01-20T00:00:00Z\",\n    \"balloonPaymentDueDate\": \"2020-01-20T00:00:0",
  b! "0Z\",\n    \"balloonPaymentAmount\": 1234\n  },\n  \"l1\": {\n    \"segmentIdentifier\": \"L1\",\n    \"changeIndic",
  b! "ator\": 1,\n    \"newConsumerAccountNumber\": \"New Consumer Account Number\"\n  },\n  \"n1\": {\n    \"segmentI",
  b! "dentifier\": \"N1\",\n    \"employerName\": \"Employer Name\",\n    \"firstLineEmployerAddress\": \"First Line o",
  b! "f Employer Address\",\n    \"secondLineEmployerAddress\": \"Second Line of Employer Address\",\n    \"employ",
  b! "erCity\": \"Employer City\",\n    \"employerState\": \"MI\",\n    \"zipCode\": \"23456\",\n    \"occupation\": \"Occu",
  b! "pation\"\n  }\n}"]

/-- /repo/test/testdata/header_record.dat, 436 bytes. -/
def headerRecordDat : Bytes := List.flatten [
  b! "0430\n0426HEADER                           555555555508202002051019990510199905101999Y\nOUR BUSINESS N",
  b! "AME HERE                 LINE ONE OF YOUR ADDRESS LINE TWO OF YOUR\n ADDRESS LINE THERE OF YOUR ADDRE",
  b! "SS                    1234567890               \n                                                    ",
  b! "                            \n                                                                       ",
  b! "         \n                          "]

/-- /repo/test/testdata/j1_segment.dat, 100 bytes. -/
def j1SegmentDat : Bytes := List.flatten [
  b! "J1 BEAUCHAMP                KEVIN                                   S4451128770102202043355523332R  "]

/-- /repo/test/testdata/j2_segment.dat, 201 bytes. -/
def j2SegmentDat : Bytes := List.flatten [
  b! "J2 BEAUCHAMP                KEVIN                                   S4451128770102202043355523332R U",
  b! "\nS234 HARRISON PLACE              SUITE #305                      LANSING             MI72654    YO ",
  b! " "]

/-- /repo/test/testdata/k1_segment.dat, 34 bytes. -/
def k1SegmentDat : Bytes := List.flatten [
  b! "K1WETCOSAT INDUSTRIES LTD.      04"]

/-- /repo/test/testdata/k2_segment.dat, 34 bytes. -/
def k2SegmentDat : Bytes := List.flatten [
  b! "K21Purchased From Name            "]

/-- /repo/test/testdata/k3_segment.dat, 40 bytes. -/
def k3SegmentDat : Bytes := List.flatten [
  b! "K300                  Mortgage Number   "]

/-- /repo/test/testdata/k4_segment.dat, 30 bytes. -/
def k4SegmentDat : Bytes := List.flatten [
  b! "K4010120202001202020000001234 "]

/-- /repo/test/testdata/l1_segment.dat, 54 bytes. -/
def l1SegmentDat : Bytes := List.flatten [
  b! "L11New Consumer Account Number                        "]

/-- /repo/test/testdata/n1_segment.dat, 146 bytes. -/
def n1SegmentDat : Bytes := List.flatten [
  b! "N1Employer Name                 First Line of Employer Address  Second Line of Employer Address Empl",
  b! "oyer City       MI23456    Occupation         "]

/-- /repo/test/testdata/packed_base_segment.dat, 1110 bytes. -/
def packedBaseSegmentDat : Bytes := List.flatten [
  [4, 86, 0, 0, 4, 82, 0, 0, 49, 0, 0, 235, 161, 23, 224, 212, 115, 48, 54, 54, 54, 54, 54, 54, 54, 32, 32, 32, 32, 32],
  b! "          553723456           ",
  [32, 32, 32, 32, 32, 32, 32, 32, 32, 32, 77, 52, 56, 0, 171, 60, 3, 115, 0, 0, 0, 0, 0, 0, 0, 0, 1, 160, 76, 79],
  [67, 32, 0, 0, 0, 0, 0, 0, 0, 0, 0, 160, 54, 50, 32, 66, 66, 66, 66, 66, 66, 66, 66, 66, 66, 66, 66, 66, 66, 66],
  [66, 66, 66, 66, 66, 66, 66, 66, 66, 65, 83, 88, 65, 0, 0, 0, 57, 57, 0, 0, 0, 0, 0, 0, 0, 0, 0, 0, 0, 140],
  [105, 82, 115, 0, 140, 105, 82, 115, 0, 140, 105, 82, 115, 0, 140, 105, 82, 115, 32, 32, 32, 32, 32, 32, 32, 32, 32, 32, 32, 32],
  b! "      SMITH-JONES             ",
  b! " JUNIOR                       ",
  [32, 32, 32, 32, 32, 32, 32, 32, 32, 32, 32, 83, 0, 0, 16, 16, 160, 0, 140, 105, 82, 115, 0, 0, 73, 150, 2, 210, 49, 32],
  b! " USRMXH+6W Casper, Wyoming,   ",
  b! "     United States            ",
  b! "       U.S. Postal         MI7",
  b! "2654    YOJ1 BEAUCHAMP        ",
  b! "        KEVIN                 ",
  b! "                  S44511287701",
  b! "02202043355523332R  J2 BEAUCHA",
  b! "MP                KEVIN       ",
  b! "                            S4",
  b! "451128770102202043355523332R U",
  b! "S234 HARRISON PLACE           ",
  b! "   SUITE #305                 ",
  b! "     LANSING             MI726",
  b! "54    YO  J2 BEAUCHAMP        ",
  b! "        KEVIN                 ",
  b! "                  S44511287701",
  b! "02202043355523332R US234 HARRI",
  b! "SON PLACE              SUITE #",
  b! "305                      LANSI",
  b! "NG             MI72654    YO  ",
  b! "K300                  Mortgage",
  b! " Number   L11New Consumer Acco",
  b! "unt Number                    ",
  b! "    N1Employer Name           ",
  b! "      First Line of Employer A",
  b! "ddress  Second Line of Employe",
  b! "r Address Employer City       ",
  b! "MI23456    Occupation         "]

/-- /repo/test/testdata/packed_file.dat, 1744 bytes. -/
def packedFileDat : Bytes := List.flatten [
  [1, 114, 0, 0, 1, 110, 0, 0, 72, 69, 65, 68, 69, 82, 32, 32, 32, 32, 32, 32, 32, 32, 32, 32, 32, 32, 32, 32, 32, 32],
  b! "           5555555555082020020",
  b! "51019990510199905101999YOUR BU",
  b! "SINESS NAME HERE              ",
  b! "   LINE ONE OF YOUR ADDRESS LI",
  b! "NE TWO OF YOUR ADDRESS LINE TH",
  b! "ERE OF YOUR ADDRESS           ",
  b! "         1234567890           ",
  b! "                              ",
  b! "                              ",
  b! "                              ",
  b! "                              ",
  [32, 32, 32, 32, 32, 32, 32, 32, 32, 32, 3, 240, 0, 0, 3, 236, 0, 0, 49, 0, 0, 235, 161, 23, 224, 114, 115, 48, 54, 54],
  b! "66666               553723456 ",
  [32, 32, 32, 32, 32, 32, 32, 32, 32, 32, 32, 32, 32, 32, 32, 32, 32, 32, 32, 32, 77, 52, 56, 0, 171, 60, 3, 115, 0, 0],
  [0, 0, 0, 0, 0, 0, 9, 134, 76, 79, 67, 32, 0, 0, 0, 0, 0, 0, 0, 0, 0, 100, 54, 50, 32, 66, 66, 66, 66, 66],
  [66, 66, 66, 66, 66, 66, 66, 66, 66, 66, 66, 66, 66, 66, 66, 66, 66, 66, 66, 65, 83, 88, 65, 0, 0, 0, 8, 185, 0, 0],
  [0, 0, 0, 0, 0, 0, 0, 0, 0, 140, 105, 82, 115, 0, 109, 189, 193, 115, 0, 122, 103, 242, 115, 0, 122, 103, 242, 115, 32, 32],
  b! "                SMITH-JONES   ",
  b! "           JUNIOR             ",
  [32, 32, 32, 32, 32, 32, 32, 32, 32, 32, 32, 32, 32, 32, 32, 32, 32, 32, 32, 32, 32, 83, 0, 9, 127, 41, 247, 0, 48, 141],
  [148, 115, 0, 1, 52, 124, 181, 227, 49, 32, 32, 85, 83, 82, 77, 88, 72, 43, 54, 87, 32, 67, 97, 115, 112, 101, 114, 44, 32, 87],
  b! "yoming,        United States  ",
  b! "                 U.S. Postal  ",
  b! "       MI72654    YOJ1 BEAUCHA",
  b! "MP                KEVIN       ",
  b! "                            S4",
  b! "451128770102202043355523332R  ",
  b! "J2 BEAUCHAMP                KE",
  b! "VIN                           ",
  b! "        S445112877010220204335",
  b! "5523332R US234 HARRISON PLACE ",
  b! "             SUITE #305       ",
  b! "               LANSING        ",
  b! "     MI72654    YO  K1WETCOSAT",
  b! " INDUSTRIES LTD.      04K21Pur",
  b! "chased From Name            K3",
  b! "00                  Mortgage N",
  b! "umber   K401012020200120202000",
  b! "0001234 L11New Consumer Accoun",
  b! "t Number                      ",
  b! "  N1Employer Name             ",
  b! "    First Line of Employer Add",
  b! "ress  Second Line of Employer ",
  b! "Address Employer City       MI",
  [50, 51, 52, 53, 54, 32, 32, 32, 32, 79, 99, 99, 117, 112, 97, 116, 105, 111, 110, 32, 32, 32, 32, 32, 32, 32, 32, 32, 1, 110],
  [0, 0, 84, 82, 65, 73, 76, 69, 82, 0, 0, 0, 0, 1, 32, 32, 32, 32, 32, 0, 0, 0, 0, 0, 0, 0, 0, 0, 1, 0],
  [0, 0, 0, 1, 0, 0, 0, 0, 3, 0, 0, 0, 0, 0, 0, 0, 0, 0, 0, 0, 0, 0, 0, 0, 0, 0, 0, 0, 0, 0],
  [0, 0, 0, 0, 0, 0, 0, 0, 1, 0, 0, 0, 0, 0, 0, 0, 0, 0, 0, 0, 0, 0, 0, 0, 0, 0, 0, 0, 0, 0],
  [0, 0, 0, 0, 0, 0, 0, 0, 0, 0, 0, 0, 0, 0, 0, 0, 0, 0, 0, 0, 0, 0, 0, 0, 0, 0, 0, 0, 0, 0],
  [0, 0, 0, 0, 0, 0, 0, 0, 0, 0, 0, 0, 0, 0, 0, 0, 0, 0, 0, 0, 0, 0, 0, 0, 0, 0, 0, 0, 0, 0],
  [0, 0, 0, 0, 0, 0, 0, 0, 1, 0, 0, 0, 0, 1, 0, 0, 0, 0, 1, 0, 0, 0, 0, 1, 0, 0, 0, 0, 1, 0],
  [0, 0, 0, 1, 0, 0, 0, 0, 3, 0, 0, 0, 0, 1, 0, 0, 0, 0, 1, 0, 0, 0, 0, 1, 0, 0, 0, 0, 3, 0],
  [0, 0, 0, 1, 0, 0, 0, 0, 1, 0, 0, 0, 0, 1, 0, 0, 0, 0, 3, 32, 32, 32, 32, 32, 32, 32, 32, 32, 32, 32],
  b! "                              ",
  b! "                              ",
  b! "                              ",
  b! "                              ",
  b! "    "]

/-- /repo/test/testdata/packed_file.json, 5696 bytes. -/
def packedFileJson : Bytes := List.flatten [
  b! "{\n  \"header\": {\n    \"blockDescriptorWord\": 370,\n    \"recordDescriptorWord\": 366,\n    \"recordIdentifi",
  b! "er\": \"HEADER\",\n    \"transUnionProgramIdentifier\": \"5555555555\",\n    \"activityDate\": \"2002-08-20T00:0",
  b! "0:00Z\",\n    \"dateCreated\": \"1999-05-10T00:00:00Z\",\n    \"programDate\": \"1999-05-10T00:00:00Z\",\n    \"p",
  b! "rogramRevisionDate\": \"1999-05-10T00:00:00Z\",\n    \"reporterName\": \"YOUR BUSINESS NAME HERE\",\n    \"rep",
  b! "orterAddress\": \"LINE ONE OF YOUR ADDRESS LINE TWO OF YOUR ADDRESS LINE THERE OF YOUR ADDRESS\",\n    \"",
  b! "reporterTelephoneNumber\": 1234567890\n  },\n  \"data\": [\n    {\n      \"base\": {\n        \"blockDescriptor",
  b! "Word\": 1008,\n        \"recordDescriptorWord\": 1004,\n        \"processingIndicator\": 1,\n        \"timeSt",
  b! "amp\": \"2020-01-01T01:11:22Z\",\n        \"identificationNumber\": \"6666666\",\n        \"consumerAccountNum",
  b! "ber\": \"553723456\",\n        \"portfolioType\": \"M\",\n        \"accountType\": \"48\",\n        \"dateOpened\": ",
  b! "\"2019-11-22T00:00:00Z\",\n        \"highestCredit\": 2438,\n        \"termsDuration\": \"LOC\",\n        \"actu",
  b! "alPaymentAmount\": 100,\n        \"accountStatus\": \"62\",\n        \"paymentHistoryProfile\": \"BBBBBBBBBBBB",
  b! "BBBBBBBBBBBB\",\n        \"specialComment\": \"AS\",\n        \"complianceConditionCode\": \"XA\",\n        \"cur",
  b! "rentBalance\": 2233,\n        \"dateAccountInformation\": \"2002-09-20T00:00:00Z\",\n        \"dateFirstDeli",
  b! "nquency\": \"2001-07-19T00:00:00Z\",\n        \"dateClosed\": \"2002-08-02T00:00:00Z\",\n        \"dateLastPay",
  b! "ment\": \"2002-08-02T00:00:00Z\",\n        \"interestTypeIndicator\": \"\",\n        \"surname\": \"SMITH-JONES\"",
  b! ",\n        \"firstName\": \"JUNIOR\",\n        \"generationCode\": \"S\",\n        \"socialSecurityNumber\": 1593",
  b! "28759,\n        \"dateBirth\": \"1972-03-18T00:00:00Z\",\n        \"telephoneNumber\": 5175555555,\n        \"",
  b! "ecoaCode\": \"1\",\n        \"countryCode\": \"US\",\n        \"firstLineAddress\": \"RMXH+6W Casper, Wyoming,\",",
  b! "\n        \"secondLineAddress\": \"United States\",\n        \"city\": \"U.S. Postal\",\n        \"state\": \"MI\",",
  b! "\n        \"zipCode\": \"72654\",\n        \"addressIndicator\": \"Y\",\n        \"residenceCode\": \"O\"\n      },\n",
  b! "      \"j1\": [\n        {\n          \"segmentIdentifier\": \"J1\",\n          \"surname\": \"BEAUCHAMP\",\n     ",
  b! "     \"firstName\": \"KEVIN\",\n          \"generationCode\": \"S\",\n          \"socialSecurityNumber\": 445112",
  b! "877,\n          \"dateBirth\": \"2020-01-02T00:00:00Z\",\n          \"telephoneNumber\": 4335552333,\n       ",
  b! "   \"ecoaCode\": \"2\",\n          \"consumerInformationIndicator\": \"R\"\n        }\n      ],\n      \"j2\": [\n ",
  b! "       {\n          \"segmentIdentifier\": \"J2\",\n          \"surname\": \"BEAUCHAMP\",\n          \"firstName",
  b! "\": \"KEVIN\",\n          \"generationCode\": \"S\",\n          \"socialSecurityNumber\": 445112877,\n          ",
  b! "\"dateBirth\": \"2020-01-02T00:00:00Z\",\n          \"telephoneNumber\": 4335552333,\n          \"ecoaCode\": ",
  b! "\"2\",\n          \"consumerInformationIndicator\": \"R\",\n          \"countryCode\": \"US\",\n          \"firstL",
  b! "ineAddress\": \"234 HARRISON PLACE\",\n          \"secondLineAddress\": \"SUITE #305\",\n          \"city\": \"L",
  b! "ANSING\",\n          \"state\": \"MI\",\n          \"zipCode\": \"72654\",\n          \"addressIndicator\": \"Y\",\n ",
  b! "         \"residenceCode\": \"O\"\n        }\n      ],\n      \"k1\": {\n        \"segmentIdentifier\": \"K1\",\n  ",
  b! "      \"originalCreditorName\": \"WETCOSAT INDUSTRIES LTD.\",\n        \"creditorClassification\": 4\n      ",
  b! "},\n      \"k2\": {\n        \"segmentIdentifier\": \"K2\",\n        \"purchasedIndicator\": 1,\n        \"purcha",
  b! "sedName\": \"Purchased From Name\"\n      },\n      \"k3\": {\n        \"segmentIdentifier\": \"K3\",\n        \"m",
  b! "ortgageIdentificationNumber\": \"Mortgage Number\"\n      },\n      \"k4\": {\n        \"segmentIdentifier\": ",
  b! "\"K4\",\n        \"specializedPaymentIndicator\": 1,\n        \"deferredPaymentStartDate\": \"2020-01-20T00:0",
  b! "0:00Z\",\n        \"balloonPaymentDueDate\": \"2020-01-20T00:00:00Z\",\n        \"balloonPaymentAmount\": 123",
  b! "4\n      },\n      \"l1\": {\n        \"segmentIdentifier\": \"L1\",\n        \"changeIndicator\": 1,\n        \"n",
  b! "ewConsumerAccountNumber\": \"New Consumer Account Number\"\n      },\n      \"n1\": {\n        \"segmentIdent",
  b! "ifier\": \"N1\",\n        \"employerName\": \"Employer Name\",\n        \"firstLineEmployerAddress\": \"First Li",
  b! "ne of Employer Address\",\n        \"secondLineEmployerAddress\": \"Second Line of Employer Address\",\n   ",
  b! "     \"employerCity\": \"Employer City\",\n        \"employerState\": \"MI\",\n        \"zipCode\": \"23456\",\n   ",
  b! "     \"occupation\": \"Occupation\"\n      }\n    }\n  ],\n  \"trailer\": {\n    \"recordDescriptorWord\": 366,\n ",
  b! "   \"recordIdentifier\": \"TRAILER\",\n    \"totalBaseRecords\": 1,\n    \"totalStatusCodeDF\": 0,\n    \"totalC",
  b! "onsumerSegmentsJ1\": 1,\n    \"totalConsumerSegmentsJ2\": 1,\n    \"blockCount\": 3,\n    \"totalStatusCodeDA",
  b! "\": 0,\n    \"totalStatusCode05\": 0,\n    \"totalStatusCode11\": 0,\n    \"totalStatusCode13\": 0,\n    \"total",
  b! "StatusCode61\": 0,\n    \"totalStatusCode62\": 1,\n    \"totalStatusCode63\": 0,\n    \"totalStatusCode64\": 0",
  b! ",\n    \"totalStatusCode65\": 0,\n    \"totalStatusCode71\": 0,\n    \"totalStatusCode78\": 0,\n    \"totalStat",
  b! "usCode80\": 0,\n    \"totalStatusCode82\": 0,\n    \"totalStatusCode83\": 0,\n    \"totalStatusCode84\": 0,\n  ",
  b! "  \"totalStatusCode88\": 0,\n    \"totalStatusCode89\": 0,\n    \"totalStatusCode93\": 0,\n    \"totalStatusCo",
  b! "de94\": 0,\n    \"totalStatusCode95\": 0,\n    \"totalStatusCode96\": 0,\n    \"totalStatusCode97\": 0,\n    \"t",
  b! "otalECOACodeZ\": 0,\n    \"totalEmploymentSegments\": 1,\n    \"totalOriginalCreditorSegments\": 1,\n    \"to",
  b! "talPurchasedToSegments\": 1,\n    \"totalMortgageInformationSegments\": 1,\n    \"totalPaymentInformationS",
  b! "egments\": 1,\n    \"totalChangeSegments\": 1,\n    \"totalSocialNumbersAllSegments\": 3,\n    \"totalSocialN",
  b! "umbersBaseSegments\": 1,\n    \"totalSocialNumbersJ1Segments\": 1,\n    \"totalSocialNumbersJ2Segments\": 1",
  b! ",\n    \"totalDatesBirthAllSegments\": 3,\n    \"totalDatesBirthBaseSegments\": 1,\n    \"totalDatesBirthJ1S",
  b! "egments\": 1,\n    \"totalDatesBirthJ2Segments\": 1,\n    \"totalTelephoneNumbersAllSegments\": 3\n  }\n}"]

/-- /repo/test/testdata/packed_header_record.dat, 370 bytes. -/
def packedHeaderRecordDat : Bytes := List.flatten [
  [1, 114, 0, 0, 1, 110, 0, 0, 72, 69, 65, 68, 69, 82, 32, 32, 32, 32, 32, 32, 32, 32, 32, 32, 32, 32, 32, 32, 32, 32],
  b! "           5555555555082020020",
  b! "51019990510199905101999YOUR BU",
  b! "SINESS NAME HERE              ",
  b! "   LINE ONE OF YOUR ADDRESS LI",
  b! "NE TWO OF YOUR ADDRESS LINE TH",
  b! "ERE OF YOUR ADDRESS           ",
  b! "         1234567890           ",
  b! "                              ",
  b! "                              ",
  b! "                              ",
  b! "                              ",
  b! "          "]

/-- /repo/test/testdata/packed_trailer_record.dat, 366 bytes. -/
def packedTrailerRecordDat : Bytes := List.flatten [
  [1, 110, 0, 0, 84, 82, 65, 73, 76, 69, 82, 0, 0, 0, 0, 1, 32, 32, 32, 32, 32, 0, 0, 0, 0, 0, 0, 0, 0, 0],
  [0, 0, 0, 0, 0, 0, 0, 0, 0, 1, 0, 0, 0, 0, 0, 0, 0, 0, 0, 0, 0, 0, 0, 0, 0, 0, 0, 0, 0, 0],
  [0, 0, 0, 0, 0, 0, 0, 0, 0, 0, 0, 0, 0, 0, 0, 0, 0, 0, 0, 0, 0, 0, 0, 0, 0, 0, 0, 0, 0, 0],
  [0, 0, 0, 0, 0, 0, 0, 0, 0, 0, 0, 0, 0, 0, 0, 1, 0, 0, 0, 0, 1, 0, 0, 0, 0, 1, 0, 0, 0, 0],
  [1, 0, 0, 0, 0, 1, 0, 0, 0, 0, 1, 0, 0, 0, 0, 1, 0, 0, 0, 0, 1, 0, 0, 0, 0, 1, 0, 0, 0, 0],
  [1, 0, 0, 0, 0, 1, 0, 0, 0, 0, 0, 0, 0, 0, 0, 1, 0, 0, 0, 0, 1, 0, 0, 0, 0, 1, 0, 0, 0, 0],
  [1, 0, 0, 0, 0, 1, 0, 0, 0, 0, 1, 0, 0, 0, 0, 1, 0, 0, 0, 0, 1, 0, 0, 0, 0, 1, 0, 0, 0, 0],
  [1, 0, 0, 0, 0, 1, 0, 0, 0, 0, 1, 0, 0, 0, 0, 1, 0, 0, 0, 0, 1, 32, 32, 32, 32, 32, 32, 32, 32, 32],
  b! "                              ",
  b! "                              ",
  b! "                              ",
  b! "                              ",
  b! "      "]

/-- /repo/test/testdata/trailer_record.dat, 430 bytes. -/
def trailerRecordDat : Bytes := List.flatten [
  b! "0426TRAILER000000001         00000000000000000000000000000000000100000000000000000000000000000000000",
  b! "\n000000000000000000000000000000000000000000000000000000000000000000000000000000000000000000000000000",
  b! "0\n00000000100000000100000000100000000000000000100000000000000000100000000100000000100000000100000000",
  b! "10\n0000000100000000000000000100000000100000000100000000100000000100000000100000000100000000100000000",
  b! "100\n0000001                   "]

/-- /repo/test/testdata/unpacked_fixed_file.dat, 1896 bytes. -/
def unpackedFixedFileDat : Bytes := List.flatten [
  b! "0470HEADER                           555555555508202002051019990510199905101999YOUR BUSINESS NAME HE",
  b! "RE                 LINE ONE OF YOUR ADDRESS LINE TWO OF YOUR ADDRESS LINE THERE OF YOUR ADDRESS     ",
  b! "               1234567890                                                                           ",
  b! "                                                                                                    ",
  b! "                                                                      100010101202001112206666666   ",
  b! "            553723456                     M4811222019000000000000002438LOC 00000000000000010062 BBBB",
  b! "BBBBBBBBBBBBBBBBBBBBASXA00000223300000000000000000009202002071920010802200208022002                 ",
  b! " SMITH-JONES              JUNIOR                                  S1593287590318197251755555551  USR",
  b! "MXH+6W Casper, Wyoming,        United States                   U.S. Postal         MI72654    YOJ1 B",
  b! "EAUCHAMP                KEVIN                                   S4451128770102202043355523332R  J2 B",
  b! "EAUCHAMP                KEVIN                                   S4451128770102202043355523332R US234",
  b! " HARRISON PLACE              SUITE #305                      LANSING             MI72654    YO  K300",
  b! "                  Mortgage Number   L11New Consumer Account Number                        N1Employer",
  b! " Name                 First Line of Employer Address  Second Line of Employer Address Employer City ",
  b! "      MI23456    Occupation                                           0426TRAILER000000001         0",
  b! "0000000000000000100000000100000000300000000000000000000000000000000000000000000000000000100000000000",
  b! "0000000000000000000000000000000000000000000000000000000000000000000000000000000000000000000000000000",
  b! "0000000000000000000000000000000000000000000000000010000000000000000000000000010000000000000000010000",
  b! "00003000000001000000001000000001000000003000000001000000001000000001000000003                   "]

/-- /repo/test/testdata/unpacked_fixed_file.json, 5082 bytes. -/
def unpackedFixedFileJson : Bytes := List.flatten [
  b! "{\n  \"header\": {\n    \"recordDescriptorWord\": 426,\n    \"recordIdentifier\": \"HEADER\",\n    \"transUnionPr",
  b! "ogramIdentifier\": \"5555555555\",\n    \"activityDate\": \"2002-08-20T00:00:00Z\",\n    \"dateCreated\": \"1999",
  b! "-05-10T00:00:00Z\",\n    \"programDate\": \"1999-05-10T00:00:00Z\",\n    \"programRevisionDate\": \"1999-05-10",
  b! "T00:00:00Z\",\n    \"reporterName\": \"YOUR BUSINESS NAME HERE\",\n    \"reporterAddress\": \"LINE ONE OF YOUR",
  b! " ADDRESS LINE TWO OF YOUR ADDRESS LINE THERE OF YOUR ADDRESS\",\n    \"reporterTelephoneNumber\": 123456",
  b! "7890\n  },\n  \"data\": [\n    {\n      \"base\": {\n        \"recordDescriptorWord\": 1000,\n        \"processin",
  b! "gIndicator\": 1,\n        \"timeStamp\": \"2020-01-01T01:11:22Z\",\n        \"identificationNumber\": \"666666",
  b! "6\",\n        \"consumerAccountNumber\": \"553723456\",\n        \"portfolioType\": \"M\",\n        \"accountType",
  b! "\": \"48\",\n        \"dateOpened\": \"2019-11-22T00:00:00Z\",\n        \"highestCredit\": 2438,\n        \"terms",
  b! "Duration\": \"LOC\",\n        \"actualPaymentAmount\": 100,\n        \"accountStatus\": \"62\",\n        \"paymen",
  b! "tHistoryProfile\": \"BBBBBBBBBBBBBBBBBBBBBBBB\",\n        \"specialComment\": \"AS\",\n        \"complianceCon",
  b! "ditionCode\": \"XA\",\n        \"currentBalance\": 2233,\n        \"dateAccountInformation\": \"2002-09-20T00:",
  b! "00:00Z\",\n        \"dateFirstDelinquency\": \"2001-07-19T00:00:00Z\",\n        \"dateClosed\": \"2002-08-02T0",
  b! "0:00:00Z\",\n        \"dateLastPayment\": \"2002-08-02T00:00:00Z\",\n        \"interestTypeIndicator\": \"\",\n ",
  b! "       \"surname\": \"SMITH-JONES\",\n        \"firstName\": \"JUNIOR\",\n        \"generationCode\": \"S\",\n     ",
  b! "   \"socialSecurityNumber\": 159328759,\n        \"dateBirth\": \"1972-03-18T00:00:00Z\",\n        \"telephon",
  b! "eNumber\": 5175555555,\n        \"ecoaCode\": \"1\",\n        \"countryCode\": \"US\",\n        \"firstLineAddres",
  b! "s\": \"RMXH+6W Casper, Wyoming,\",\n        \"secondLineAddress\": \"United States\",\n        \"city\": \"U.S. ",
  b! "Postal\",\n        \"state\": \"MI\",\n        \"zipCode\": \"72654\",\n        \"addressIndicator\": \"Y\",\n       ",
  b! " \"residenceCode\": \"O\"\n      },\n      \"j1\": [\n        {\n          \"segmentIdentifier\": \"J1\",\n        ",
  b! "  \"surname\": \"BEAUCHAMP\",\n          \"firstName\": \"KEVIN\",\n          \"generationCode\": \"S\",\n         ",
  b! " \"socialSecurityNumber\": 445112877,\n          \"dateBirth\": \"2020-01-02T00:00:00Z\",\n          \"teleph",
  b! "oneNumber\": 4335552333,\n          \"ecoaCode\": \"2\",\n          \"consumerInformationIndicator\": \"R\"\n   ",
  b! "     }\n      ],\n      \"j2\": [\n        {\n          \"segmentIdentifier\": \"J2\",\n          \"surname\": \"B",
  b! "EAUCHAMP\",\n          \"firstName\": \"KEVIN\",\n          \"generationCode\": \"S\",\n          \"socialSecurit",
  b! "yNumber\": 445112877,\n          \"dateBirth\": \"2020-01-02T00:00:00Z\",\n          \"telephoneNumber\": 433",
  b! "5552333,\n          \"ecoaCode\": \"2\",\n          \"consumerInformationIndicator\": \"R\",\n          \"countr",
  b! "yCode\": \"US\",\n          \"firstLineAddress\": \"234 HARRISON PLACE\",\n          \"secondLineAddress\": \"SU",
  b! "ITE #305\",\n          \"city\": \"LANSING\",\n          \"state\": \"MI\",\n          \"zipCode\": \"72654\",\n     ",
  b! "     \"addressIndicator\": \"Y\",\n          \"residenceCode\": \"O\"\n        }\n      ],\n      \"k3\": {\n      ",
  b! "  \"segmentIdentifier\": \"K3\",\n        \"mortgageIdentificationNumber\": \"Mortgage Number\"\n      },\n    ",
  b! "  \"l1\": {\n        \"segmentIdentifier\": \"L1\",\n        \"changeIndicator\": 1,\n        \"newConsumerAccou",
  b! "ntNumber\": \"New Consumer Account Number\"\n      },\n      \"n1\": {\n        \"segmentIdentifier\": \"N1\",\n ",
  b! "       \"employerName\": \"Employer Name\",\n        \"firstLineEmployerAddress\": \"First Line of Employer ",
  b! "Address\",\n        \"secondLineEmployerAddress\": \"Second Line of Employer Address\",\n        \"employerC",
  b! "ity\": \"Employer City\",\n        \"employerState\": \"MI\",\n        \"zipCode\": \"23456\",\n        \"occupatio",
  b! "n\": \"Occupation\"\n      }\n    }\n  ],\n  \"trailer\": {\n    \"recordDescriptorWord\": 426,\n    \"recordIdent",
  b! "ifier\": \"TRAILER\",\n    \"totalBaseRecords\": 1,\n    \"totalStatusCodeDF\": 0,\n    \"totalConsumerSegments",
  b! "J1\": 1,\n    \"totalConsumerSegmentsJ2\": 1,\n    \"blockCount\": 3,\n    \"totalStatusCodeDA\": 0,\n    \"tota",
  b! "lStatusCode05\": 0,\n    \"totalStatusCode11\": 0,\n    \"totalStatusCode13\": 0,\n    \"totalStatusCode61\": ",
  b! "0,\n    \"totalStatusCode62\": 1,\n    \"totalStatusCode63\": 0,\n    \"totalStatusCode64\": 0,\n    \"totalSta",
  b! "tusCode65\": 0,\n    \"totalStatusCode71\": 0,\n    \"totalStatusCode78\": 0,\n    \"totalStatusCode80\": 0,\n ",
  b! "   \"totalStatusCode82\": 0,\n    \"totalStatusCode83\": 0,\n    \"totalStatusCode84\": 0,\n    \"totalStatusC",
  b! "ode88\": 0,\n    \"totalStatusCode89\": 0,\n    \"totalStatusCode93\": 0,\n    \"totalStatusCode94\": 0,\n    \"",
  b! "totalStatusCode95\": 0,\n    \"totalStatusCode96\": 0,\n    \"totalStatusCode97\": 0,\n    \"totalECOACodeZ\":",
  b! " 0,\n    \"totalEmploymentSegments\": 1,\n    \"totalOriginalCreditorSegments\": 0,\n    \"totalPurchasedToS",
  b! "egments\": 0,\n    \"totalMortgageInformationSegments\": 1,\n    \"totalPaymentInformationSegments\": 0,\n  ",
  b! "  \"totalChangeSegments\": 1,\n    \"totalSocialNumbersAllSegments\": 3,\n    \"totalSocialNumbersBaseSegme",
  b! "nts\": 1,\n    \"totalSocialNumbersJ1Segments\": 1,\n    \"totalSocialNumbersJ2Segments\": 1,\n    \"totalDat",
  b! "esBirthAllSegments\": 3,\n    \"totalDatesBirthBaseSegments\": 1,\n    \"totalDatesBirthJ1Segments\": 1,\n  ",
  b! "  \"totalDatesBirthJ2Segments\": 1,\n    \"totalTelephoneNumbersAllSegments\": 3\n  }\n}\n"]

/-- /repo/test/testdata/unpacked_fixed_request.dat, 1854 bytes. -/
def unpackedFixedRequestDat : Bytes := List.flatten [
  b! "0426HEADER                           555555555508202002051019990510199905101999YOUR BUSINESS NAME HE",
  b! "RE                 LINE ONE OF YOUR ADDRESS LINE TWO OF YOUR ADDRESS LINE THERE OF YOUR ADDRESS     ",
  b! "               1234567890                                                                           ",
  b! "                                                                                                    ",
  b! "                          \n100010101202001112206666666               553723456                     M",
  b! "4811222019000000000000002438LOC 00000000000000010062 BBBBBBBBBBBBBBBBBBBBBBBBASXA0000022330000000000",
  b! "0000000009202002071920010802200208022002                  SMITH-JONES              JUNIOR           ",
  b! "                       S1593287590318197251755555551  USRMXH+6W Casper, Wyoming,        United State",
  b! "s                   U.S. Postal         MI72654    YOJ1 BEAUCHAMP                KEVIN              ",
  b! "                     S4451128770102202043355523332R  J2 BEAUCHAMP                KEVIN              ",
  b! "                     S4451128770102202043355523332R US234 HARRISON PLACE              SUITE #305    ",
  b! "                  LANSING             MI72654    YO  K300                  Mortgage Number   L11New ",
  b! "Consumer Account Number                        N1Employer Name                 First Line of Employe",
  b! "r Address  Second Line of Employer Address Employer City       MI23456    Occupation                ",
  b! "                           \n0426TRAILER000000001         0000000000000000010000000010000000030000000",
  b! "0000000000000000000000000000000000000000000000100000000000000000000000000000000000000000000000000000",
  b! "0000000000000000000000000000000000000000000000000000000000000000000000000000000000000000000000000000",
  b! "0000000010000000000000000000000000010000000000000000010000000030000000010000000010000000010000000030",
  b! "00000001000000001000000001000000003                   "]

/-- /repo/test/testdata/unpacked_variable_file.dat, 1924 bytes. -/
def unpackedVariableFileDat : Bytes := List.flatten [
  b! "04960426HEADER                           555555555508202002051019990510199905101999YOUR BUSINESS NAM",
  b! "E HERE                 LINE ONE OF YOUR ADDRESS LINE TWO OF YOUR ADDRESS LINE THERE OF YOUR ADDRESS ",
  b! "                   1234567890                                                                       ",
  b! "                                                                                                    ",
  b! "                                                                                                \n042",
  b! "6100010101202001112206666666               553723456                     M48112220190000000000000024",
  b! "38LOC 00000000000000010062 BBBBBBBBBBBBBBBBBBBBBBBBASXA000002233000000000000000000092020020719200108",
  b! "02200208022002                  SMITH-JONES              JUNIOR                                  S15",
  b! "93287590318197251755555551  USRMXH+6W Casper, Wyoming,        United States                   U.S. P",
  b! "ostal         MI72654    YOJ1 BEAUCHAMP                KEVIN                                   S4451",
  b! "128770102202043355523332R  J2 BEAUCHAMP                KEVIN                                   S4451",
  b! "128770102202043355523332R US234 HARRISON PLACE              SUITE #305                      LANSING ",
  b! "            MI72654    YO  K300                  Mortgage Number   L11New Consumer Account Number   ",
  b! "                     N1Employer Name                 First Line of Employer Address  Second Line of ",
  b! "Employer Address Employer City       MI23456    Occupation                                       \n04",
  b! "26TRAILER000000001         0000000000000000010000000010000000030000000000000000000000000000000000000",
  b! "0000000000000000100000000000000000000000000000000000000000000000000000000000000000000000000000000000",
  b! "0000000000000000000000000000000000000000000000000000000000000000000000000000001000000000000000000000",
  b! "0000010000000000000000010000000030000000010000000010000000010000000030000000010000000010000000010000",
  b! "00003                   "]

/-- /repo/test/testdata/unpacked_variable_file.json, 5149 bytes. -/
def unpackedVariableFileJson : Bytes := List.flatten [
  b! "{\n  \"header\": {\n    \"blockDescriptorWord\": 496,\n    \"recordDescriptorWord\": 426,\n    \"recordIdentifi",
  b! "er\": \"HEADER\",\n    \"transUnionProgramIdentifier\": \"5555555555\",\n    \"activityDate\": \"2002-08-20T00:0",
  b! "0:00Z\",\n    \"dateCreated\": \"1999-05-10T00:00:00Z\",\n    \"programDate\": \"1999-05-10T00:00:00Z\",\n    \"p",
  b! "rogramRevisionDate\": \"1999-05-10T00:00:00Z\",\n    \"reporterName\": \"YOUR BUSINESS NAME HERE\",\n    \"rep",
  b! "orterAddress\": \"LINE ONE OF YOUR ADDRESS LINE TWO OF YOUR ADDRESS LINE THERE OF YOUR ADDRESS\",\n    \"",
  b! "reporterTelephoneNumber\": 1234567890\n  },\n  \"data\": [\n    {\n      \"base\": {\n        \"blockDescriptor",
  b! "Word\": 426,\n        \"recordDescriptorWord\": 1000,\n        \"processingIndicator\": 1,\n        \"timeSta",
  b! "mp\": \"2020-01-01T01:11:22Z\",\n        \"identificationNumber\": \"6666666\",\n        \"consumerAccountNumb",
  b! "er\": \"553723456\",\n        \"portfolioType\": \"M\",\n        \"accountType\": \"48\",\n        \"dateOpened\": \"",
  b! "2019-11-22T00:00:00Z\",\n        \"highestCredit\": 2438,\n        \"termsDuration\": \"LOC\",\n        \"actua",
  b! "lPaymentAmount\": 100,\n        \"accountStatus\": \"62\",\n        \"paymentHistoryProfile\": \"BBBBBBBBBBBBB",
  b! "BBBBBBBBBBB\",\n        \"specialComment\": \"AS\",\n        \"complianceConditionCode\": \"XA\",\n        \"curr",
  b! "entBalance\": 2233,\n        \"dateAccountInformation\": \"2002-09-20T00:00:00Z\",\n        \"dateFirstDelin",
  b! "quency\": \"2001-07-19T00:00:00Z\",\n        \"dateClosed\": \"2002-08-02T00:00:00Z\",\n        \"dateLastPaym",
  b! "ent\": \"2002-08-02T00:00:00Z\",\n        \"interestTypeIndicator\": \"\",\n        \"surname\": \"SMITH-JONES\",",
  b! "\n        \"firstName\": \"JUNIOR\",\n        \"generationCode\": \"S\",\n        \"socialSecurityNumber\": 15932",
  b! "8759,\n        \"dateBirth\": \"1972-03-18T00:00:00Z\",\n        \"telephoneNumber\": 5175555555,\n        \"e",
  b! "coaCode\": \"1\",\n        \"countryCode\": \"US\",\n        \"firstLineAddress\": \"RMXH+6W Casper, Wyoming,\",\n",
  b! "        \"secondLineAddress\": \"United States\",\n        \"city\": \"U.S. Postal\",\n        \"state\": \"MI\",\n",
  b! "        \"zipCode\": \"72654\",\n        \"addressIndicator\": \"Y\",\n        \"residenceCode\": \"O\"\n      },\n ",
  b! "     \"j1\": [\n        {\n          \"segmentIdentifier\": \"J1\",\n          \"surname\": \"BEAUCHAMP\",\n      ",
  b! "    \"firstName\": \"KEVIN\",\n          \"generationCode\": \"S\",\n          \"socialSecurityNumber\": 4451128",
  b! "77,\n          \"dateBirth\": \"2020-01-02T00:00:00Z\",\n          \"telephoneNumber\": 4335552333,\n        ",
  b! "  \"ecoaCode\": \"2\",\n          \"consumerInformationIndicator\": \"R\"\n        }\n      ],\n      \"j2\": [\n  ",
  b! "      {\n          \"segmentIdentifier\": \"J2\",\n          \"surname\": \"BEAUCHAMP\",\n          \"firstName\"",
  b! ": \"KEVIN\",\n          \"generationCode\": \"S\",\n          \"socialSecurityNumber\": 445112877,\n          \"",
  b! "dateBirth\": \"2020-01-02T00:00:00Z\",\n          \"telephoneNumber\": 4335552333,\n          \"ecoaCode\": \"",
  b! "2\",\n          \"consumerInformationIndicator\": \"R\",\n          \"countryCode\": \"US\",\n          \"firstLi",
  b! "neAddress\": \"234 HARRISON PLACE\",\n          \"secondLineAddress\": \"SUITE #305\",\n          \"city\": \"LA",
  b! "NSING\",\n          \"state\": \"MI\",\n          \"zipCode\": \"72654\",\n          \"addressIndicator\": \"Y\",\n  ",
  b! "        \"residenceCode\": \"O\"\n        }\n      ],\n      \"k3\": {\n        \"segmentIdentifier\": \"K3\",\n   ",
  b! "     \"mortgageIdentificationNumber\": \"Mortgage Number\"\n      },\n      \"l1\": {\n        \"segmentIdenti",
  b! "fier\": \"L1\",\n        \"changeIndicator\": 1,\n        \"newConsumerAccountNumber\": \"New Consumer Account",
  b! " Number\"\n      },\n      \"n1\": {\n        \"segmentIdentifier\": \"N1\",\n        \"employerName\": \"Employer",
  b! " Name\",\n        \"firstLineEmployerAddress\": \"First Line of Employer Address\",\n        \"secondLineEmp",
  b! "loyerAddress\": \"Second Line of Employer Address\",\n        \"employerCity\": \"Employer City\",\n        \"",
  b! "employerState\": \"MI\",\n        \"zipCode\": \"23456\",\n        \"occupation\": \"Occupation\"\n      }\n    }\n ",
  b! " ],\n  \"trailer\": {\n    \"recordDescriptorWord\": 426,\n    \"recordIdentifier\": \"TRAILER\",\n    \"totalBas",
  b! "eRecords\": 1,\n    \"totalStatusCodeDF\": 0,\n    \"totalConsumerSegmentsJ1\": 1,\n    \"totalConsumerSegmen",
  b! "tsJ2\": 1,\n    \"blockCount\": 3,\n    \"totalStatusCodeDA\": 0,\n    \"totalStatusCode05\": 0,\n    \"totalSta",
  b! "tusCode11\": 0,\n    \"totalStatusCode13\": 0,\n    \"totalStatusCode61\": 0,\n    \"totalStatusCode62\": 1,\n ",
  b! "   \"totalStatusCode63\": 0,\n    \"totalStatusCode64\": 0,\n    \"totalStatusCode65\": 0,\n    \"totalStatusC",
  b! "ode71\": 0,\n    \"totalStatusCode78\": 0,\n    \"totalStatusCode80\": 0,\n    \"totalStatusCode82\": 0,\n    \"",
  b! "totalStatusCode83\": 0,\n    \"totalStatusCode84\": 0,\n    \"totalStatusCode88\": 0,\n    \"totalStatusCode8",
  b! "9\": 0,\n    \"totalStatusCode93\": 0,\n    \"totalStatusCode94\": 0,\n    \"totalStatusCode95\": 0,\n    \"tota",
  b! "lStatusCode96\": 0,\n    \"totalStatusCode97\": 0,\n    \"totalECOACodeZ\": 0,\n    \"totalEmploymentSegments",
  b! "\": 1,\n    \"totalOriginalCreditorSegments\": 0,\n    \"totalPurchasedToSegments\": 0,\n    \"totalMortgageI",
  b! "nformationSegments\": 1,\n    \"totalPaymentInformationSegments\": 0,\n    \"totalChangeSegments\": 1,\n    ",
  b! "\"totalSocialNumbersAllSegments\": 3,\n    \"totalSocialNumbersBaseSegments\": 1,\n    \"totalSocialNumbers",
  b! "J1Segments\": 1,\n    \"totalSocialNumbersJ2Segments\": 1,\n    \"totalDatesBirthAllSegments\": 3,\n    \"tot",
  b! "alDatesBirthBaseSegments\": 1,\n    \"totalDatesBirthJ1Segments\": 1,\n    \"totalDatesBirthJ2Segments\": 1",
  b! ",\n    \"totalTelephoneNumbersAllSegments\": 3\n  }\n}"]

/-- /repo/test/testdata/crashers/095fc33da8989029f8de95581227c9408d15eed6, 1481 bytes. -/
def crasher_095fc33d : Bytes := List.flatten [
  [1, 114, 0, 0, 1, 110, 0, 0, 72, 69, 65, 68, 69, 82, 32, 32, 32, 32, 32, 32, 32, 32, 32, 32, 32, 32, 32, 32, 32, 32],
  b! "           5555555555082020020",
  b! "51019990510199905101999YOUR BU",
  b! "SINESS NAME HERE              ",
  b! "   LINE ONE OF YOUR ADDRESS LI",
  b! "NE TWO OF YOUR ADDRESS LINE TH",
  b! "ERE OF YOUR ADDRESS           ",
  b! "         1234567890           ",
  b! "                              ",
  b! "                              ",
  b! "                              ",
  b! "                              ",
  [32, 32, 32, 32, 32, 32, 32, 32, 32, 32, 4, 86, 0, 0, 4, 82, 0, 0, 49, 0, 0, 235, 161, 23, 224, 212, 115, 48, 54, 54],
  b! "66666               553723456 ",
  [32, 32, 32, 32, 32, 32, 32, 32, 32, 32, 32, 32, 32, 32, 32, 32, 32, 32, 32, 32, 77, 52, 56, 0, 171, 60, 3, 115, 0, 0],
  [0, 0, 0, 0, 0, 0, 1, 160, 76, 79, 67, 32, 0, 0, 0, 0, 0, 0, 0, 0, 0, 160, 54, 50, 32, 66, 66, 66, 66, 66],
  [66, 66, 66, 66, 66, 66, 66, 66, 66, 66, 66, 66, 66, 66, 66, 66, 66, 66, 66, 65, 83, 88, 65, 0, 0, 0, 57, 57, 0, 0],
  [0, 0, 0, 0, 0, 0, 0, 0, 0, 140, 105, 82, 115, 0, 140, 105, 82, 115, 0, 140, 105, 82, 115, 0, 140, 105, 82, 115, 32, 32],
  b! "                SMITH-JONES   ",
  b! "           JUNIOR             ",
  [32, 32, 32, 32, 32, 32, 32, 32, 32, 32, 32, 32, 32, 32, 32, 32, 32, 32, 32, 32, 32, 83, 0, 0, 16, 16, 160, 0, 140, 105],
  [82, 115, 0, 0, 73, 150, 2, 210, 49, 32, 32, 85, 83, 82, 77, 88, 72, 43, 54, 87, 32, 67, 97, 115, 112, 101, 114, 44, 32, 87],
  b! "yoming,        United States  ",
  b! "                 U.S. Postal  ",
  b! "       MI72654    YOJ1 BEAUCHA",
  b! "MP                KEVIN       ",
  b! "                            S4",
  b! "451128770102202043355523332R  ",
  b! "J2 BEAUCHAMP                KE",
  b! "VIN                           ",
  b! "        S445112877010220204335",
  b! "5523332R US234 HARRISON PLACE ",
  b! "             SUITE #305       ",
  b! "               LANSING        ",
  b! "     MI72654    YO  J2 BEAUCHA",
  b! "MP                KEVIN       ",
  b! "                            S4",
  b! "451128770102202043355523332R U",
  b! "S234 HARRISON PLACE           ",
  b! "   SUITE #305                 ",
  b! "     LANSING             MI726",
  b! "54    YO  K300                ",
  b! "  Mortgage Number   L11New Con",
  b! "sumer Account Number          ",
  b! "              N1Employer Name ",
  b! "                First Line of ",
  b! "Employer Address  Second Line ",
  b! "of Employer Address Employer C",
  b! "ity       MI23456    Occupatio",
  [110, 32, 32, 32, 32, 32, 32, 32, 32, 32, 1]]

/-- /repo/test/testdata/crashers/0a80c2ffa71f7b3655f5f50f3e72ff28e4ef092f, 426 bytes. -/
def crasher_0a80c2ff : Bytes := List.flatten [
  b! "-4101999HEADER    I 2         ",
  b! "           5555550820200205101",
  b! "9990510199905101999YOUR BUSINE",
  b! "SS NAME HERE                 L",
  b! "INE ONE OF YOUR ADDRESS LINE T",
  b! "WO OF YOUR ADDRESS LINE THERE ",
  b! "OF YOUR ADDRESS               ",
  b! "     1234567890               ",
  b! "                              ",
  b! "                              ",
  b! "                              ",
  b! "                              ",
  [32, 32, 32, 32, 32, 32, 4, 86, 0, 0, 4, 82, 0, 0, 49, 0, 0, 235, 161, 23, 224, 212, 115, 48, 54, 54, 54, 54, 54, 54],
  b! "6          553723456          ",
  b! "      "]

/-- /repo/test/testdata/crashers/10c935414cdc13f9358b71f97c819e455cc01ace, 739 bytes. -/
def crasher_10c93541 : Bytes := List.flatten [
  [1, 114, 0, 0, 1, 110, 0, 0, 72, 69, 65, 68, 69, 82, 32, 32, 32, 32, 32, 32, 32, 32, 32, 32, 32, 32, 32, 32, 32, 32],
  b! "           5555555555082020020",
  b! "51019990510199905101999YOUR BU",
  b! "SINESS NAME HERE              ",
  b! "   LINE ONE OF YOUR ADDRESS LI",
  b! "NE TWO OF YOUR ADDRESS LINE TH",
  b! "ERE OF YOUR ADDRESS           ",
  b! "         1234567890           ",
  b! "                              ",
  b! "                              ",
  b! "                              ",
  b! "                              ",
  [32, 32, 32, 32, 32, 32, 32, 32, 32, 32, 4, 86, 0, 0, 4, 82, 0, 0, 49, 0, 0, 235, 161, 23, 224, 212, 115, 48, 54, 54],
  b! "66666               553723456 ",
  [32, 32, 32, 32, 32, 32, 32, 32, 32, 32, 32, 32, 32, 32, 32, 32, 32, 32, 32, 32, 77, 52, 56, 0, 171, 60, 3, 115, 0, 0],
  [0, 0, 0, 0, 0, 0, 1, 160, 76, 79, 67, 32, 0, 0, 0, 0, 0, 0, 0, 0, 0, 160, 54, 50, 32, 66, 66, 66, 66, 66],
  [66, 66, 66, 66, 66, 66, 66, 66, 66, 66, 66, 66, 66, 66, 66, 66, 66, 66, 66, 65, 83, 88, 65, 0, 0, 0, 57, 57, 0, 0],
  [0, 0, 0, 0, 0, 0, 0, 0, 0, 140, 105, 82, 115, 0, 140, 105, 82, 115, 0, 140, 105, 82, 115, 0, 140, 105, 82, 115, 32, 32],
  b! "                SMITH-JONES   ",
  b! "           JUNIOR             ",
  [32, 32, 32, 32, 32, 32, 32, 32, 32, 32, 32, 32, 32, 32, 32, 32, 32, 32, 32, 32, 32, 83, 0, 0, 16, 16, 160, 0, 140, 105],
  [82, 115, 0, 0, 73, 150, 2, 210, 49, 32, 32, 85, 83, 82, 77, 88, 72, 43, 54, 87, 32, 67, 97, 115, 112, 101, 114, 44, 32, 87],
  b! "yoming,        United States  ",
  b! "                 U.S. Postal  ",
  b! "       MI72654    Y"]

/-- /repo/test/testdata/crashers/616e90a06df85c12530b6d9f48b83562b3ff9fe8, 839 bytes. -/
def crasher_616e90a0 : Bytes := List.flatten [
  [1, 114, 0, 0, 1, 110, 0, 0, 72, 69, 65, 68, 69, 82, 32, 32, 32, 32, 32, 32, 32, 32, 32, 32, 32, 32, 32, 32, 32, 32],
  b! "           5555555555082020020",
  b! "51019990510199905101999YOUR BU",
  b! "SINESS NAME HERE              ",
  b! "   LINE ONE OF YOUR ADDRESS LI",
  b! "NE TWO OF YOUR ADDRESS LINE TH",
  b! "ERE OF YOUR ADDRESS           ",
  b! "         1234567890           ",
  b! "                              ",
  b! "                              ",
  b! "                              ",
  b! "                              ",
  [32, 32, 32, 32, 32, 32, 32, 32, 32, 32, 4, 86, 0, 0, 4, 82, 0, 0, 49, 0, 0, 235, 161, 23, 224, 212, 115, 48, 54, 54],
  b! "66666               553723456 ",
  [32, 32, 32, 32, 32, 32, 32, 32, 32, 32, 32, 32, 32, 32, 32, 32, 32, 32, 32, 32, 77, 52, 56, 0, 171, 60, 3, 115, 0, 0],
  [0, 0, 0, 0, 0, 0, 1, 160, 76, 79, 67, 32, 0, 0, 0, 0, 0, 0, 0, 0, 0, 160, 54, 50, 32, 66, 66, 66, 66, 66],
  [66, 66, 66, 66, 66, 66, 66, 66, 66, 66, 66, 66, 66, 66, 66, 66, 66, 66, 66, 65, 83, 88, 65, 0, 0, 0, 57, 57, 0, 0],
  [0, 0, 0, 0, 0, 0, 0, 0, 0, 140, 105, 82, 115, 0, 140, 105, 82, 115, 0, 140, 105, 82, 115, 0, 140, 105, 82, 115, 32, 32],
  b! "                SMITH-JONES   ",
  b! "           JUNIOR             ",
  [32, 32, 32, 32, 32, 32, 32, 32, 32, 32, 32, 32, 32, 32, 32, 32, 32, 32, 32, 32, 32, 83, 0, 0, 16, 16, 160, 0, 140, 105],
  [82, 115, 0, 0, 73, 150, 2, 210, 49, 32, 32, 85, 83, 82, 77, 88, 72, 43, 54, 87, 32, 67, 97, 115, 112, 101, 114, 44, 32, 87],
  b! "yoming,        United States  ",
  b! "                 U.S. Postal  ",
  b! "       MI72654    YOJ BEAUCHAM",
  b! "P                KEVIN        ",
  b! "                           S44",
  b! "511287rsDeinquncy\":\"00-079T00"]

end Metro2.TestData
