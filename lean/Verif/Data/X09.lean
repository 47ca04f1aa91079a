import Verif.Data.XNames
/-! Territories of `/repo/assets/PhoneNumberMetadata.xml` as trees. Generated by `tools/gen_xml.py`; do not edit. -/

set_option maxRecDepth 100000
namespace Phone.Data.X
open Phone.Xml

/-- what stands before this territory -/
noncomputable def KR_before : List Node :=
  [.l4, .comment, .s4, .comment, .s4, .comment, .s4, .comment, .s4, .comment, .s4, .comment, .s4, .comment, .s4]
/-- its attributes -/
noncomputable def KR_attrs : List (Str × Str) := [(n.id, str% "KR"), (n.countryCode, str% "82"), (n.internationalPrefix, str% "00(?:[125689]|3(?:[46]5|91)|7(?:00|27|3|55|6[126]))"), (n.nationalPrefix, str% "0"), (n.nationalPrefixForParsing, str% "0(8(?:[1-46-8]|5\\d\\d))?"), (n.mobileNumberPortableRegion, str% "true")]
/-- its content -/
noncomputable def KR : List Node :=
  [.s6,
   .elem n.availableFormats []
    [.s8, .comment, .s8,
     .elem n.numberFormat [(n.pattern, str% "(\\d{5})"), (n.nationalPrefixFormattingRule, str% "$NP$FG")]
      [.s10,
       .leaf n.leadingDigits (str% "1[016-9]1"), .s10,
       .leaf n.leadingDigits (str% "1[016-9]11"), .s10,
       .leaf n.leadingDigits (str% "1[016-9]114"), .s10,
       .leaf n.format (str% "$1"), .s10,
       .leaf n.intlFormat (str% "NA"), .s8], .s8, .comment, .s8,
     .elem n.numberFormat [(n.pattern, str% "(\\d{2})(\\d{3,4})"), (n.nationalPrefixFormattingRule, str% "$NP$FG"), (n.carrierCodeFormattingRule, str% "$NP$CC-$FG")]
      [.s10,
       .leaf n.leadingDigits (str% "\n            (?:\n              3[1-3]|\n              [46][1-4]|\n              5[1-5]\n            )1\n          "), .s10,
       .leaf n.format (str% "$1-$2"), .s8], .s8, .comment, .s8,
     .elem n.numberFormat [(n.pattern, str% "(\\d{4})(\\d{4})")]
      [.s10,
       .leaf n.leadingDigits (str% "1"), .s10,
       .leaf n.format (str% "$1-$2"), .s8], .s8, .comment, .s8,
     .elem n.numberFormat [(n.pattern, str% "(\\d)(\\d{3,4})(\\d{4})"), (n.nationalPrefixFormattingRule, str% "$NP$FG"), (n.carrierCodeFormattingRule, str% "$NP$CC-$FG")]
      [.s10,
       .leaf n.leadingDigits (str% "2"), .s10,
       .leaf n.format (str% "$1-$2-$3"), .s8], .s8, .comment, .s8,
     .elem n.numberFormat [(n.pattern, str% "(\\d{2})(\\d{3})(\\d{4})"), (n.nationalPrefixFormattingRule, str% "$NP$FG"), (n.carrierCodeFormattingRule, str% "$NP$CC-$FG")]
      [.s10,
       .leaf n.leadingDigits (str% "\n            [36]0|\n            8\n          "), .s10,
       .leaf n.format (str% "$1-$2-$3"), .s8], .s8, .comment, .s8,
     .elem n.numberFormat [(n.pattern, str% "(\\d{2})(\\d{3,4})(\\d{4})"), (n.nationalPrefixFormattingRule, str% "$NP$FG"), (n.carrierCodeFormattingRule, str% "$NP$CC-$FG")]
      [.s10,
       .leaf n.leadingDigits (str% "\n            [1346]|\n            5[1-5]\n          "), .s10,
       .leaf n.format (str% "$1-$2-$3"), .s8], .s8, .comment, .s8,
     .elem n.numberFormat [(n.pattern, str% "(\\d{2})(\\d{4})(\\d{4})"), (n.nationalPrefixFormattingRule, str% "$NP$FG"), (n.carrierCodeFormattingRule, str% "$NP$CC-$FG")]
      [.s10,
       .leaf n.leadingDigits (str% "[57]"), .s10,
       .leaf n.format (str% "$1-$2-$3"), .s8], .s8, .comment, .s8,
     .elem n.numberFormat [(n.pattern, str% "(\\d{5})(\\d{3})(\\d{3})")]
      [.s10,
       .leaf n.leadingDigits (str% "003"), .s10,
       .leaf n.leadingDigits (str% "0030"), .s10,
       .leaf n.format (str% "$1 $2 $3"), .s10,
       .leaf n.intlFormat (str% "NA"), .s8], .s8, .comment, .s8,
     .elem n.numberFormat [(n.pattern, str% "(\\d{2})(\\d{5})(\\d{4})"), (n.nationalPrefixFormattingRule, str% "$NP$FG"), (n.carrierCodeFormattingRule, str% "$NP$CC-$FG")]
      [.s10,
       .leaf n.leadingDigits (str% "5"), .s10,
       .leaf n.format (str% "$1-$2-$3"), .s8], .s8, .comment, .s8,
     .elem n.numberFormat [(n.pattern, str% "(\\d{5})(\\d{3,4})(\\d{4})")]
      [.s10,
       .leaf n.leadingDigits (str% "0"), .s10,
       .leaf n.format (str% "$1 $2 $3"), .s10,
       .leaf n.intlFormat (str% "NA"), .s8], .s8, .comment, .s8,
     .elem n.numberFormat [(n.pattern, str% "(\\d{5})(\\d{2})(\\d{3})(\\d{4})")]
      [.s10,
       .leaf n.leadingDigits (str% "0"), .s10,
       .leaf n.format (str% "$1 $2 $3 $4"), .s10,
       .leaf n.intlFormat (str% "NA"), .s8], .s6], .s6,
   .elem n.generalDesc []
    [.s8,
     .leaf n.nationalNumberPattern (str% "\n          00[1-9]\\d{8,11}|\n          (?:\n            [12]|\n            5\\d{3}\n          )\\d{7}|\n          [13-6]\\d{9}|\n          (?:\n            [1-6]\\d|\n            80\n          )\\d{7}|\n          [3-6]\\d{4,5}|\n          (?:\n            00|\n            7\n          )0\\d{8}\n        "), .s6], .s6, .comment, .s6, .comment, .s6,
   .elem n.noInternationalDialling []
    [.s8,
     .empty n.possibleLengths [(n.national, str% "[11-14]")], .s8,
     .leaf n.nationalNumberPattern (str% "\n          00(?:\n            3(?:\n              08\\d{6,7}|\n              68\\d{7}\n            )|\n            798\\d{7,9}\n          )\n        "), .s6], .s6, .comment, .s6,
   .elem n.fixedLine []
    [.s8,
     .empty n.possibleLengths [(n.national, str% "5,6,[8-10]"), (n.localOnly, str% "3,4,7")], .s8,
     .leaf n.exampleNumber (str% "22123456"), .s8,
     .leaf n.nationalNumberPattern (str% "\n          (?:\n            2|\n            3[1-3]|\n            [46][1-4]|\n            5[1-5]\n          )[1-9]\\d{6,7}|\n          (?:\n            3[1-3]|\n            [46][1-4]|\n            5[1-5]\n          )1\\d{2,3}\n        "), .s6], .s6, .comment, .s6,
   .elem n.mobile []
    [.s8,
     .empty n.possibleLengths [(n.national, str% "9,10")], .s8,
     .leaf n.exampleNumber (str% "1020000000"), .s8,
     .leaf n.nationalNumberPattern (str% "\n          1(?:\n            05(?:\n              [0-8]\\d|\n              9[0-6]\n            )|\n            22[13]\\d\n          )\\d{4,5}|\n          1(?:\n            0[0-46-9]|\n            [16-9]\\d|\n            2[013-9]\n          )\\d{6,7}\n        "), .s6], .s6,
   .elem n.pager []
    [.s8,
     .empty n.possibleLengths [(n.national, str% "9,10")], .s8,
     .leaf n.exampleNumber (str% "1523456789"), .s8,
     .leaf n.nationalNumberPattern (str% "15\\d{7,8}"), .s6], .s6,
   .elem n.tollFree []
    [.s8,
     .empty n.possibleLengths [(n.national, str% "9,[11-14]")], .s8,
     .leaf n.exampleNumber (str% "801234567"), .s8,
     .leaf n.nationalNumberPattern (str% "\n          00(?:\n            308\\d{6,7}|\n            798\\d{7,9}\n          )|\n          (?:\n            00368|\n            [38]0\n          )\\d{7}\n        "), .s6], .s6, .comment, .s6,
   .elem n.premiumRate []
    [.s8,
     .empty n.possibleLengths [(n.national, str% "9")], .s8,
     .leaf n.exampleNumber (str% "602345678"), .s8,
     .leaf n.nationalNumberPattern (str% "60[2-9]\\d{6}"), .s6], .s6, .comment, .s6,
   .elem n.personalNumber []
    [.s8,
     .empty n.possibleLengths [(n.national, str% "10,11")], .s8,
     .leaf n.exampleNumber (str% "5012345678"), .s8,
     .leaf n.nationalNumberPattern (str% "50\\d{8,9}"), .s6], .s6,
   .elem n.voip []
    [.s8,
     .empty n.possibleLengths [(n.national, str% "10")], .s8,
     .leaf n.exampleNumber (str% "7012345678"), .s8,
     .leaf n.nationalNumberPattern (str% "70\\d{8}"), .s6], .s6, .comment, .s6,
   .elem n.uan []
    [.s8,
     .empty n.possibleLengths [(n.national, str% "8")], .s8,
     .leaf n.exampleNumber (str% "15441234"), .s8,
     .leaf n.nationalNumberPattern (str% "\n          1(?:\n            5(?:\n              22|\n              33|\n              44|\n              66|\n              77|\n              88|\n              99\n            )|\n            6(?:\n              [07]0|\n              44|\n              6[0168]|\n              88\n            )|\n            8(?:\n              00|\n              33|\n              55|\n              77|\n              99\n            )\n          )\\d{4}\n        "), .s6], .s4]

/-- what stands before this territory -/
noncomputable def KW_before : List Node :=
  [.l4, .comment, .s4, .comment, .s4, .comment, .s4]
/-- its attributes -/
noncomputable def KW_attrs : List (Str × Str) := [(n.id, str% "KW"), (n.countryCode, str% "965"), (n.internationalPrefix, str% "00"), (n.mobileNumberPortableRegion, str% "true")]
/-- its content -/
noncomputable def KW : List Node :=
  [.s6,
   .elem n.availableFormats []
    [.s8, .comment, .s8,
     .elem n.numberFormat [(n.pattern, str% "(\\d{4})(\\d{3,4})")]
      [.s10,
       .leaf n.leadingDigits (str% "\n            [169]|\n            2(?:\n              [235]|\n              4[1-35-9]\n            )|\n            52\n          "), .s10,
       .leaf n.format (str% "$1 $2"), .s8], .s8,
     .elem n.numberFormat [(n.pattern, str% "(\\d{3})(\\d{5})")]
      [.s10,
       .leaf n.leadingDigits (str% "[245]"), .s10,
       .leaf n.format (str% "$1 $2"), .s8], .s6], .s6,
   .elem n.generalDesc []
    [.s8,
     .leaf n.nationalNumberPattern (str% "\n          18\\d{5}|\n          (?:\n            [2569]\\d|\n            41\n          )\\d{6}\n        "), .s6], .s6,
   .elem n.fixedLine []
    [.s8,
     .empty n.possibleLengths [(n.national, str% "8")], .s8,
     .leaf n.exampleNumber (str% "22345678"), .s8,
     .leaf n.nationalNumberPattern (str% "\n          2(?:\n            [23]\\d\\d|\n            4(?:\n              [1-35-9]\\d|\n              44\n            )|\n            5(?:\n              0[034]|\n              [2-46]\\d|\n              5[1-3]|\n              7[1-7]\n            )\n          )\\d{4}\n        "), .s6], .s6, .comment, .s6, .comment, .s6,
   .elem n.mobile []
    [.s8,
     .empty n.possibleLengths [(n.national, str% "8")], .s8,
     .leaf n.exampleNumber (str% "50012345"), .s8,
     .leaf n.nationalNumberPattern (str% "\n          (?:\n            41\\d\\d|\n            5(?:\n              (?:\n                [05]\\d|\n                1[0-7]|\n                6[56]\n              )\\d|\n              2(?:\n                22|\n                5[25]\n              )|\n              7(?:\n                55|\n                77\n              )|\n              88[58]\n            )|\n            6(?:\n              (?:\n                0[034679]|\n                5[015-9]|\n                6\\d\n              )\\d|\n              1(?:\n                00|\n                11|\n                6[16]\n              )|\n              2[26]2|\n              3[36]3|\n              4[46]4|\n              7(?:\n                0[013-9]|\n                [67]\\d\n              )|\n              8[68]8|\n              9(?:\n                [069]\\d|\n                3[039]\n              )\n            )|\n            9(?:\n              (?:\n                [04679]\\d|\n                8[057-9]\n              )\\d|\n              1(?:\n                00|\n                1[01]|\n                99\n              )|\n              2(?:\n                00|\n                2\\d\n              )|\n              3(?:\n                00|\n                3[03]\n              )|\n              5(?:\n                00|\n                5\\d\n              )\n            )\n          )\\d{4}\n        "), .s6], .s6, .comment, .s6,
   .elem n.tollFree []
    [.s8,
     .empty n.possibleLengths [(n.national, str% "7")], .s8,
     .leaf n.exampleNumber (str% "1801234"), .s8,
     .leaf n.nationalNumberPattern (str% "18\\d{5}"), .s6], .s4]

/-- what stands before this territory -/
noncomputable def KY_before : List Node :=
  [.l4, .comment, .s4, .comment, .s4, .comment, .s4]
/-- its attributes -/
noncomputable def KY_attrs : List (Str × Str) := [(n.id, str% "KY"), (n.countryCode, str% "1"), (n.leadingDigits, str% "345"), (n.internationalPrefix, str% "011"), (n.nationalPrefix, str% "1"), (n.nationalPrefixForParsing, str% "([2-9]\\d{6})$|1"), (n.nationalPrefixTransformRule, str% "345$1"), (n.mobileNumberPortableRegion, str% "true")]
/-- its content -/
noncomputable def KY : List Node :=
  [.s6,
   .elem n.generalDesc []
    [.s8,
     .leaf n.nationalNumberPattern (str% "\n          (?:\n            345|\n            [58]\\d\\d|\n            900\n          )\\d{7}\n        "), .s6], .s6, .comment, .s6, .comment, .s6,
   .elem n.fixedLine []
    [.s8,
     .empty n.possibleLengths [(n.national, str% "10"), (n.localOnly, str% "7")], .s8,
     .leaf n.exampleNumber (str% "3452221234"), .s8,
     .leaf n.nationalNumberPattern (str% "\n          345(?:\n            2(?:\n              22|\n              3[23]|\n              44|\n              66\n            )|\n            333|\n            444|\n            6(?:\n              23|\n              38|\n              40\n            )|\n            7(?:\n              30|\n              4[35-79]|\n              6[6-9]|\n              77\n            )|\n            8(?:\n              00|\n              1[45]|\n              4[89]|\n              88\n            )|\n            9(?:\n              14|\n              4[035-9]\n            )\n          )\\d{4}\n        "), .s6], .s6, .comment, .s6,
   .elem n.mobile []
    [.s8,
     .empty n.possibleLengths [(n.national, str% "10"), (n.localOnly, str% "7")], .s8,
     .leaf n.exampleNumber (str% "3453231234"), .s8,
     .leaf n.nationalNumberPattern (str% "\n          345(?:\n            32[1-9]|\n            4(?:\n              1[2-6]|\n              2[0-4]\n            )|\n            5(?:\n              1[67]|\n              2[5-79]|\n              4[6-9]|\n              50|\n              76\n            )|\n            649|\n            82[56]|\n            9(?:\n              1[679]|\n              2[2-9]|\n              3[06-9]|\n              90\n            )\n          )\\d{4}\n        "), .s6], .s6,
   .elem n.tollFree []
    [.s8,
     .empty n.possibleLengths [(n.national, str% "10")], .s8,
     .leaf n.exampleNumber (str% "8002345678"), .s8,
     .leaf n.nationalNumberPattern (str% "\n          8(?:\n            00|\n            33|\n            44|\n            55|\n            66|\n            77|\n            88\n          )[2-9]\\d{6}\n        "), .s6], .s6,
   .elem n.premiumRate []
    [.s8,
     .empty n.possibleLengths [(n.national, str% "10")], .s8,
     .leaf n.exampleNumber (str% "9002345678"), .s8,
     .leaf n.nationalNumberPattern (str% "\n          (?:\n            345976|\n            900[2-9]\\d\\d\n          )\\d{4}\n        "), .s6], .s6, .comment, .s6,
   .elem n.personalNumber []
    [.s8,
     .empty n.possibleLengths [(n.national, str% "10")], .s8,
     .leaf n.exampleNumber (str% "5002345678"), .s8,
     .leaf n.nationalNumberPattern (str% "\n          52(?:\n            3(?:\n              [2-46-9][02-9]\\d|\n              5(?:\n                [02-46-9]\\d|\n                5[0-46-9]\n              )\n            )|\n            4(?:\n              [2-478][02-9]\\d|\n              5(?:\n                [034]\\d|\n                2[024-9]|\n                5[0-46-9]\n              )|\n              6(?:\n                0[1-9]|\n                [2-9]\\d\n              )|\n              9(?:\n                [05-9]\\d|\n                2[0-5]|\n                49\n              )\n            )\n          )\\d{4}|\n          52[34][2-9]1[02-9]\\d{4}|\n          5(?:\n            00|\n            2[125-9]|\n            3[23]|\n            44|\n            66|\n            77|\n            88\n          )[2-9]\\d{6}\n        "), .s6], .s4]

/-- what stands before this territory -/
noncomputable def KZ_before : List Node :=
  [.l4, .comment, .s4, .comment, .s4, .comment, .s4, .comment, .s4]
/-- its attributes -/
noncomputable def KZ_attrs : List (Str × Str) := [(n.id, str% "KZ"), (n.countryCode, str% "7"), (n.leadingDigits, str% "7"), (n.preferredInternationalPrefix, str% "8~10"), (n.internationalPrefix, str% "810"), (n.nationalPrefix, str% "8"), (n.mobileNumberPortableRegion, str% "true")]
/-- its content -/
noncomputable def KZ : List Node :=
  [.s6,
   .elem n.generalDesc []
    [.s8,
     .leaf n.nationalNumberPattern (str% "\n          8\\d{13}|\n          [78]\\d{9}\n        "), .s6], .s6,
   .elem n.noInternationalDialling []
    [.s8,
     .empty n.possibleLengths [(n.national, str% "10")], .s8,
     .leaf n.nationalNumberPattern (str% "751\\d{7}"), .s6], .s6, .comment, .s6,
   .elem n.fixedLine []
    [.s8,
     .empty n.possibleLengths [(n.national, str% "10"), (n.localOnly, str% "[5-7]")], .s8,
     .leaf n.exampleNumber (str% "7123456789"), .s8,
     .leaf n.nationalNumberPattern (str% "\n          7(?:\n            1(?:\n              0(?:\n                [23]\\d|\n                4[0-3]|\n                59|\n                63\n              )|\n              1(?:\n                [23]\\d|\n                4[0-79]|\n                59\n              )|\n              2(?:\n                [23]\\d|\n                59\n              )|\n              3(?:\n                2\\d|\n                3[0-79]|\n                4[0-35-9]|\n                59\n              )|\n              4(?:\n                [24]\\d|\n                3[013-9]|\n                5[1-9]|\n                97\n              )|\n              5(?:\n                2\\d|\n                3[1-9]|\n                4[0-7]|\n                59\n              )|\n              6(?:\n                [2-4]\\d|\n                5[19]|\n                61\n              )|\n              72\\d|\n              8(?:\n                [27]\\d|\n                3[1-46-9]|\n                4[0-5]|\n                59\n              )\n            )|\n            2(?:\n              1(?:\n                [23]\\d|\n                4[46-9]|\n                5[3469]\n              )|\n              2(?:\n                2\\d|\n                3[0679]|\n                46|\n                5[12679]\n              )|\n              3(?:\n                [2-4]\\d|\n                5[139]\n              )|\n              4(?:\n                2\\d|\n                3[1-35-9]|\n                59\n              )|\n              5(?:\n                [23]\\d|\n                4[0-8]|\n                59|\n                61\n              )|\n              6(?:\n                2\\d|\n                3[1-9]|\n                4[0-4]|\n                59\n              )|\n              7(?:\n                [2379]\\d|\n                40|\n                5[279]\n              )|\n              8(?:\n                [23]\\d|\n                4[0-3]|\n                59\n              )|\n              9(?:\n                2\\d|\n                3[124578]|\n                59\n              )\n            )\n          )\\d{5}\n        "), .s6], .s6, .comment, .s6,
   .elem n.mobile []
    [.s8,
     .empty n.possibleLengths [(n.national, str% "10")], .s8,
     .leaf n.exampleNumber (str% "7710009998"), .s8,
     .leaf n.nationalNumberPattern (str% "\n          7(?:\n            0[0-25-8]|\n            47|\n            6[0-4]|\n            7[15-8]|\n            85\n          )\\d{7}\n        "), .s6], .s6,
   .elem n.tollFree []
    [.s8,
     .empty n.possibleLengths [(n.national, str% "10,14")], .s8,
     .leaf n.exampleNumber (str% "8001234567"), .s8,
     .leaf n.nationalNumberPattern (str% "\n          8(?:\n            00|\n            108\\d{3}\n          )\\d{7}\n        "), .s6], .s6,
   .elem n.premiumRate []
    [.s8,
     .empty n.possibleLengths [(n.national, str% "10")], .s8,
     .leaf n.exampleNumber (str% "8091234567"), .s8,
     .leaf n.nationalNumberPattern (str% "809\\d{7}"), .s6], .s6, .comment, .s6,
   .elem n.personalNumber []
    [.s8,
     .empty n.possibleLengths [(n.national, str% "10")], .s8,
     .leaf n.exampleNumber (str% "8081234567"), .s8,
     .leaf n.nationalNumberPattern (str% "808\\d{7}"), .s6], .s6,
   .elem n.voip []
    [.s8,
     .empty n.possibleLengths [(n.national, str% "10")], .s8,
     .leaf n.exampleNumber (str% "7511234567"), .s8,
     .leaf n.nationalNumberPattern (str% "751\\d{7}"), .s6], .s4]

/-- what stands before this territory -/
noncomputable def LA_before : List Node :=
  [.l4, .comment, .s4, .comment, .s4, .comment, .s4, .comment, .s4]
/-- its attributes -/
noncomputable def LA_attrs : List (Str × Str) := [(n.id, str% "LA"), (n.countryCode, str% "856"), (n.internationalPrefix, str% "00"), (n.nationalPrefix, str% "0")]
/-- its content -/
noncomputable def LA : List Node :=
  [.s6,
   .elem n.availableFormats []
    [.s8, .comment, .s8,
     .elem n.numberFormat [(n.pattern, str% "(\\d{2})(\\d{3})(\\d{3})"), (n.nationalPrefixFormattingRule, str% "$NP$FG")]
      [.s10,
       .leaf n.leadingDigits (str% "\n            2[13]|\n            3[14]|\n            [4-8]\n          "), .s10,
       .leaf n.format (str% "$1 $2 $3"), .s8], .s8, .comment, .s8,
     .elem n.numberFormat [(n.pattern, str% "(\\d{2})(\\d{2})(\\d{2})(\\d{3})"), (n.nationalPrefixFormattingRule, str% "$NP$FG")]
      [.s10,
       .leaf n.leadingDigits (str% "3"), .s10,
       .leaf n.format (str% "$1 $2 $3 $4"), .s8], .s8, .comment, .s8,
     .elem n.numberFormat [(n.pattern, str% "(\\d{2})(\\d{2})(\\d{3})(\\d{3})"), (n.nationalPrefixFormattingRule, str% "$NP$FG")]
      [.s10,
       .leaf n.leadingDigits (str% "[23]"), .s10,
       .leaf n.format (str% "$1 $2 $3 $4"), .s8], .s6], .s6,
   .elem n.generalDesc []
    [.s8,
     .leaf n.nationalNumberPattern (str% "\n          [23]\\d{9}|\n          3\\d{8}|\n          (?:\n            [235-8]\\d|\n            41\n          )\\d{6}\n        "), .s6], .s6,
   .elem n.fixedLine []
    [.s8,
     .empty n.possibleLengths [(n.national, str% "8"), (n.localOnly, str% "6")], .s8,
     .leaf n.exampleNumber (str% "21212862"), .s8,
     .leaf n.nationalNumberPattern (str% "\n          (?:\n            2[13]|\n            [35-7][14]|\n            41|\n            8[1468]\n          )\\d{6}\n        "), .s6], .s6, .comment, .s6,
   .elem n.mobile []
    [.s8,
     .empty n.possibleLengths [(n.national, str% "9,10")], .s8,
     .leaf n.exampleNumber (str% "2023123456"), .s8,
     .leaf n.nationalNumberPattern (str% "\n          (?:\n            20(?:\n              [23579]\\d|\n              8[78]\n            )|\n            30[24]\\d\n          )\\d{6}|\n          30\\d{7}\n        "), .s6], .s4]

/-- what stands before this territory -/
noncomputable def LB_before : List Node :=
  [.l4, .comment, .s4, .comment, .s4, .comment, .s4]
/-- its attributes -/
noncomputable def LB_attrs : List (Str × Str) := [(n.id, str% "LB"), (n.countryCode, str% "961"), (n.internationalPrefix, str% "00"), (n.nationalPrefix, str% "0")]
/-- its content -/
noncomputable def LB : List Node :=
  [.s6,
   .elem n.availableFormats []
    [.s8,
     .elem n.numberFormat [(n.pattern, str% "(\\d)(\\d{3})(\\d{3})"), (n.nationalPrefixFormattingRule, str% "$NP$FG")]
      [.s10,
       .leaf n.leadingDigits (str% "\n            [13-69]|\n            7(?:\n              [2-57]|\n              62|\n              8[0-6]|\n              9[04-9]\n            )|\n            8[02-9]\n          "), .s10,
       .leaf n.format (str% "$1 $2 $3"), .s8], .s8,
     .elem n.numberFormat [(n.pattern, str% "(\\d{2})(\\d{3})(\\d{3})")]
      [.s10,
       .leaf n.leadingDigits (str% "[27-9]"), .s10,
       .leaf n.format (str% "$1 $2 $3"), .s8], .s6], .s6,
   .elem n.generalDesc []
    [.s8,
     .leaf n.nationalNumberPattern (str% "\n          [27-9]\\d{7}|\n          [13-9]\\d{6}\n        "), .s6], .s6,
   .elem n.fixedLine []
    [.s8,
     .empty n.possibleLengths [(n.national, str% "7,8")], .s8,
     .leaf n.exampleNumber (str% "1123456"), .s8,
     .leaf n.nationalNumberPattern (str% "\n          7(?:\n            62|\n            8[0-6]|\n            9[04-9]\n          )\\d{4}|\n          (?:\n            [14-69]\\d|\n            2(?:\n              [14-69]\\d|\n              [78][1-9]\n            )|\n            7[2-57]|\n            8[02-9]\n          )\\d{5}\n        "), .s6], .s6, .comment, .s6,
   .elem n.mobile []
    [.s8,
     .empty n.possibleLengths [(n.national, str% "7,8")], .s8,
     .leaf n.exampleNumber (str% "71123456"), .s8,
     .leaf n.nationalNumberPattern (str% "\n          (?:\n            (?:\n              3|\n              81\n            )\\d|\n            7(?:\n              [01]\\d|\n              6[013-9]|\n              8[7-9]|\n              9[0-4]\n            )\n          )\\d{5}\n        "), .s6], .s6,
   .elem n.premiumRate []
    [.s8,
     .empty n.possibleLengths [(n.national, str% "8")], .s8,
     .leaf n.exampleNumber (str% "90123456"), .s8,
     .leaf n.nationalNumberPattern (str% "9[01]\\d{6}"), .s6], .s6,
   .elem n.sharedCost []
    [.s8,
     .empty n.possibleLengths [(n.national, str% "8")], .s8,
     .leaf n.exampleNumber (str% "80123456"), .s8,
     .leaf n.nationalNumberPattern (str% "80\\d{6}"), .s6], .s4]

/-- what stands before this territory -/
noncomputable def LC_before : List Node :=
  [.l4, .comment, .s4, .comment, .s4, .comment, .s4]
/-- its attributes -/
noncomputable def LC_attrs : List (Str × Str) := [(n.id, str% "LC"), (n.countryCode, str% "1"), (n.leadingDigits, str% "758"), (n.internationalPrefix, str% "011"), (n.nationalPrefix, str% "1"), (n.nationalPrefixForParsing, str% "([2-8]\\d{6})$|1"), (n.nationalPrefixTransformRule, str% "758$1"), (n.mobileNumberPortableRegion, str% "true")]
/-- its content -/
noncomputable def LC : List Node :=
  [.s6,
   .elem n.generalDesc []
    [.s8,
     .leaf n.nationalNumberPattern (str% "\n          (?:\n            [58]\\d\\d|\n            758|\n            900\n          )\\d{7}\n        "), .s6], .s6, .comment, .s6,
   .elem n.fixedLine []
    [.s8,
     .empty n.possibleLengths [(n.national, str% "10"), (n.localOnly, str% "7")], .s8,
     .leaf n.exampleNumber (str% "7584305678"), .s8,
     .leaf n.nationalNumberPattern (str% "\n          758(?:\n            234|\n            4(?:\n              30|\n              5\\d|\n              6[2-9]|\n              8[0-2]\n            )|\n            57[0-2]|\n            (?:\n              63|\n              75\n            )8\n          )\\d{4}\n        "), .s6], .s6,
   .elem n.mobile []
    [.s8,
     .empty n.possibleLengths [(n.national, str% "10"), (n.localOnly, str% "7")], .s8,
     .leaf n.exampleNumber (str% "7582845678"), .s8,
     .leaf n.nationalNumberPattern (str% "\n          758(?:\n            28[4-7]|\n            384|\n            4(?:\n              6[01]|\n              8[4-9]\n            )|\n            5(?:\n              1[89]|\n              20|\n              84\n            )|\n            7(?:\n              1[2-9]|\n              2\\d|\n              3[0-3]\n            )|\n            812\n          )\\d{4}\n        "), .s6], .s6,
   .elem n.tollFree []
    [.s8,
     .empty n.possibleLengths [(n.national, str% "10")], .s8,
     .leaf n.exampleNumber (str% "8002123456"), .s8,
     .leaf n.nationalNumberPattern (str% "\n          8(?:\n            00|\n            33|\n            44|\n            55|\n            66|\n            77|\n            88\n          )[2-9]\\d{6}\n        "), .s6], .s6,
   .elem n.premiumRate []
    [.s8,
     .empty n.possibleLengths [(n.national, str% "10")], .s8,
     .leaf n.exampleNumber (str% "9002123456"), .s8,
     .leaf n.nationalNumberPattern (str% "900[2-9]\\d{6}"), .s6], .s6, .comment, .s6,
   .elem n.personalNumber []
    [.s8,
     .empty n.possibleLengths [(n.national, str% "10")], .s8,
     .leaf n.exampleNumber (str% "5002345678"), .s8,
     .leaf n.nationalNumberPattern (str% "\n          52(?:\n            3(?:\n              [2-46-9][02-9]\\d|\n              5(?:\n                [02-46-9]\\d|\n                5[0-46-9]\n              )\n            )|\n            4(?:\n              [2-478][02-9]\\d|\n              5(?:\n                [034]\\d|\n                2[024-9]|\n                5[0-46-9]\n              )|\n              6(?:\n                0[1-9]|\n                [2-9]\\d\n              )|\n              9(?:\n                [05-9]\\d|\n                2[0-5]|\n                49\n              )\n            )\n          )\\d{4}|\n          52[34][2-9]1[02-9]\\d{4}|\n          5(?:\n            00|\n            2[125-9]|\n            3[23]|\n            44|\n            66|\n            77|\n            88\n          )[2-9]\\d{6}\n        "), .s6], .s4]

/-- what stands before this territory -/
noncomputable def LI_before : List Node :=
  [.l4, .comment, .s4, .comment, .s4, .comment, .s4, .comment, .s4]
/-- its attributes -/
noncomputable def LI_attrs : List (Str × Str) := [(n.id, str% "LI"), (n.countryCode, str% "423"), (n.internationalPrefix, str% "00"), (n.nationalPrefix, str% "0"), (n.nationalPrefixForParsing, str% "(1001)|0")]
/-- its content -/
noncomputable def LI : List Node :=
  [.s6,
   .elem n.availableFormats []
    [.s8, .comment, .s8,
     .elem n.numberFormat [(n.pattern, str% "(\\d{3})(\\d{2})(\\d{2})"), (n.carrierCodeFormattingRule, str% "$CC $FG")]
      [.s10,
       .leaf n.leadingDigits (str% "\n            [2379]|\n            8(?:\n              0[09]|\n              7\n            )\n          "), .s10,
       .leaf n.leadingDigits (str% "\n            [2379]|\n            8(?:\n              0(?:\n                02|\n                9\n              )|\n              7\n            )\n          "), .s10,
       .leaf n.format (str% "$1 $2 $3"), .s8], .s8,
     .elem n.numberFormat [(n.pattern, str% "(\\d{3})(\\d{3})(\\d{3})")]
      [.s10,
       .leaf n.leadingDigits (str% "8"), .s10,
       .leaf n.format (str% "$1 $2 $3"), .s8], .s8, .comment, .s8,
     .elem n.numberFormat [(n.pattern, str% "(\\d{2})(\\d{3})(\\d{4})"), (n.carrierCodeFormattingRule, str% "$CC $FG")]
      [.s10,
       .leaf n.leadingDigits (str% "69"), .s10,
       .leaf n.format (str% "$1 $2 $3"), .s8], .s8, .comment, .s8,
     .elem n.numberFormat [(n.pattern, str% "(\\d{3})(\\d{3})(\\d{3})"), (n.carrierCodeFormattingRule, str% "$CC $FG")]
      [.s10,
       .leaf n.leadingDigits (str% "6"), .s10,
       .leaf n.format (str% "$1 $2 $3"), .s8], .s6], .s6,
   .elem n.generalDesc []
    [.s8,
     .leaf n.nationalNumberPattern (str% "\n          [68]\\d{8}|\n          (?:\n            [2378]\\d|\n            90\n          )\\d{5}\n        "), .s6], .s6,
   .elem n.fixedLine []
    [.s8,
     .empty n.possibleLengths [(n.national, str% "7")], .s8,
     .leaf n.exampleNumber (str% "2345678"), .s8,
     .leaf n.nationalNumberPattern (str% "\n          (?:\n            2(?:\n              01|\n              1[27]|\n              2[024]|\n              3\\d|\n              6[02-578]|\n              96\n            )|\n            3(?:\n              [24]0|\n              33|\n              7[0135-7]|\n              8[048]|\n              9[0269]\n            )\n          )\\d{4}\n        "), .s6], .s6,
   .elem n.mobile []
    [.s8,
     .empty n.possibleLengths [(n.national, str% "7,9")], .s8,
     .leaf n.exampleNumber (str% "660234567"), .s8,
     .leaf n.nationalNumberPattern (str% "\n          (?:\n            6(?:\n              (?:\n                4[5-9]|\n                5\\d\n              )\\d|\n              6(?:\n                [024-68]\\d|\n                1[01]|\n                3[7-9]|\n                70\n              )\n            )\\d|\n            7(?:\n              [37-9]\\d|\n              42|\n              56\n            )\n          )\\d{4}\n        "), .s6], .s6, .comment, .s6,
   .elem n.tollFree []
    [.s8,
     .empty n.possibleLengths [(n.national, str% "7,9")], .s8,
     .leaf n.exampleNumber (str% "8002222"), .s8,
     .leaf n.nationalNumberPattern (str% "\n          8002[28]\\d\\d|\n          80(?:\n            05\\d|\n            9\n          )\\d{4}\n        "), .s6], .s6,
   .elem n.premiumRate []
    [.s8,
     .empty n.possibleLengths [(n.national, str% "7")], .s8,
     .leaf n.exampleNumber (str% "9002222"), .s8,
     .leaf n.nationalNumberPattern (str% "\n          90(?:\n            02[258]|\n            1(?:\n              23|\n              3[14]\n            )|\n            66[136]\n          )\\d\\d\n        "), .s6], .s6,
   .elem n.uan []
    [.s8,
     .empty n.possibleLengths [(n.national, str% "7")], .s8,
     .leaf n.exampleNumber (str% "8702812"), .s8,
     .leaf n.nationalNumberPattern (str% "\n          870(?:\n            28|\n            87\n          )\\d\\d\n        "), .s6], .s6,
   .elem n.voicemail []
    [.s8,
     .empty n.possibleLengths [(n.national, str% "9")], .s8,
     .leaf n.exampleNumber (str% "697861234"), .s8,
     .leaf n.nationalNumberPattern (str% "\n          697(?:\n            42|\n            56|\n            [78]\\d\n          )\\d{4}\n        "), .s6], .s4]

/-- what stands before this territory -/
noncomputable def LK_before : List Node :=
  [.l4, .comment, .s4, .comment, .s4, .comment, .s4]
/-- its attributes -/
noncomputable def LK_attrs : List (Str × Str) := [(n.id, str% "LK"), (n.countryCode, str% "94"), (n.internationalPrefix, str% "00"), (n.nationalPrefix, str% "0")]
/-- its content -/
noncomputable def LK : List Node :=
  [.s6,
   .elem n.availableFormats []
    [.s8, .comment, .s8,
     .elem n.numberFormat [(n.pattern, str% "(\\d{2})(\\d{3})(\\d{4})"), (n.nationalPrefixFormattingRule, str% "$NP$FG")]
      [.s10,
       .leaf n.leadingDigits (str% "7"), .s10,
       .leaf n.format (str% "$1 $2 $3"), .s8], .s8, .comment, .s8,
     .elem n.numberFormat [(n.pattern, str% "(\\d{3})(\\d{3})(\\d{3})"), (n.nationalPrefixFormattingRule, str% "$NP$FG")]
      [.s10,
       .leaf n.leadingDigits (str% "[1-689]"), .s10,
       .leaf n.format (str% "$1 $2 $3"), .s8], .s6], .s6,
   .elem n.generalDesc []
    [.s8,
     .leaf n.nationalNumberPattern (str% "[1-9]\\d{8}"), .s6], .s6, .comment, .s6,
   .elem n.fixedLine []
    [.s8,
     .empty n.possibleLengths [(n.national, str% "9"), (n.localOnly, str% "7")], .s8,
     .leaf n.exampleNumber (str% "112345678"), .s8,
     .leaf n.nationalNumberPattern (str% "\n          (?:\n            12[2-9]|\n            602|\n            8[12]\\d|\n            9(?:\n              1\\d|\n              22|\n              9[245]\n            )\n          )\\d{6}|\n          (?:\n            11|\n            2[13-7]|\n            3[1-8]|\n            4[157]|\n            5[12457]|\n            6[35-7]\n          )[2-57]\\d{6}\n        "), .s6], .s6, .comment, .s6, .comment, .s6,
   .elem n.mobile []
    [.s8,
     .empty n.possibleLengths [(n.national, str% "9")], .s8,
     .leaf n.exampleNumber (str% "712345678"), .s8,
     .leaf n.nationalNumberPattern (str% "\n          7(?:\n            [0-25-8]\\d|\n            4[0-4]\n          )\\d{6}\n        "), .s6], .s6, .comment, .s6,
   .elem n.uan []
    [.s8,
     .empty n.possibleLengths [(n.national, str% "9")], .s8,
     .leaf n.exampleNumber (str% "197312345"), .s8,
     .leaf n.nationalNumberPattern (str% "1973\\d{5}"), .s6], .s4]

/-- what stands before this territory -/
noncomputable def LR_before : List Node :=
  [.l4, .comment, .s4, .comment, .s4]
/-- its attributes -/
noncomputable def LR_attrs : List (Str × Str) := [(n.id, str% "LR"), (n.countryCode, str% "231"), (n.internationalPrefix, str% "00"), (n.nationalPrefix, str% "0")]
/-- its content -/
noncomputable def LR : List Node :=
  [.s6,
   .elem n.availableFormats []
    [.s8,
     .elem n.numberFormat [(n.pattern, str% "(\\d)(\\d{3})(\\d{3})"), (n.nationalPrefixFormattingRule, str% "$NP$FG")]
      [.s10,
       .leaf n.leadingDigits (str% "\n            4[67]|\n            [56]\n          "), .s10,
       .leaf n.format (str% "$1 $2 $3"), .s8], .s8, .comment, .s8,
     .elem n.numberFormat [(n.pattern, str% "(\\d{2})(\\d{3})(\\d{3})"), (n.nationalPrefixFormattingRule, str% "$NP$FG")]
      [.s10,
       .leaf n.leadingDigits (str% "2"), .s10,
       .leaf n.format (str% "$1 $2 $3"), .s8], .s8,
     .elem n.numberFormat [(n.pattern, str% "(\\d{2})(\\d{3})(\\d{4})"), (n.nationalPrefixFormattingRule, str% "$NP$FG")]
      [.s10,
       .leaf n.leadingDigits (str% "[2-578]"), .s10,
       .leaf n.format (str% "$1 $2 $3"), .s8], .s6], .s6,
   .elem n.generalDesc []
    [.s8,
     .leaf n.nationalNumberPattern (str% "\n          (?:\n            [2457]\\d|\n            33|\n            88\n          )\\d{7}|\n          (?:\n            2\\d|\n            [4-6]\n          )\\d{6}\n        "), .s6], .s6,
   .elem n.fixedLine []
    [.s8,
     .empty n.possibleLengths [(n.national, str% "8")], .s8,
     .leaf n.exampleNumber (str% "21234567"), .s8,
     .leaf n.nationalNumberPattern (str% "2\\d{7}"), .s6], .s6, .comment, .s6,
   .elem n.mobile []
    [.s8,
     .empty n.possibleLengths [(n.national, str% "7,9")], .s8,
     .leaf n.exampleNumber (str% "770123456"), .s8,
     .leaf n.nationalNumberPattern (str% "\n          (?:\n            (?:\n              (?:\n                22|\n                33\n              )0|\n              555|\n              7(?:\n                6[01]|\n                7\\d\n              )|\n              88\\d\n            )\\d|\n            4(?:\n              240|\n              [67]\n            )\n          )\\d{5}|\n          [56]\\d{6}\n        "), .s6], .s6,
   .elem n.premiumRate []
    [.s8,
     .empty n.possibleLengths [(n.national, str% "9")], .s8,
     .leaf n.exampleNumber (str% "332021234"), .s8,
     .leaf n.nationalNumberPattern (str% "\n          332(?:\n            02|\n            [34]\\d\n          )\\d{4}\n        "), .s6], .s4]

/-- what stands before this territory -/
noncomputable def LS_before : List Node :=
  [.l4, .comment, .s4, .comment, .s4]
/-- its attributes -/
noncomputable def LS_attrs : List (Str × Str) := [(n.id, str% "LS"), (n.countryCode, str% "266"), (n.internationalPrefix, str% "00")]
/-- its content -/
noncomputable def LS : List Node :=
  [.s6,
   .elem n.availableFormats []
    [.s8, .comment, .s8,
     .elem n.numberFormat [(n.pattern, str% "(\\d{4})(\\d{4})")]
      [.s10,
       .leaf n.leadingDigits (str% "[2568]"), .s10,
       .leaf n.format (str% "$1 $2"), .s8], .s6], .s6,
   .elem n.generalDesc []
    [.s8,
     .leaf n.nationalNumberPattern (str% "\n          (?:\n            [256]\\d\\d|\n            800\n          )\\d{5}\n        "), .s6], .s6,
   .elem n.fixedLine []
    [.s8,
     .empty n.possibleLengths [(n.national, str% "8")], .s8,
     .leaf n.exampleNumber (str% "22123456"), .s8,
     .leaf n.nationalNumberPattern (str% "2\\d{7}"), .s6], .s6,
   .elem n.mobile []
    [.s8,
     .empty n.possibleLengths [(n.national, str% "8")], .s8,
     .leaf n.exampleNumber (str% "50123456"), .s8,
     .leaf n.nationalNumberPattern (str% "[56]\\d{7}"), .s6], .s6,
   .elem n.tollFree []
    [.s8,
     .empty n.possibleLengths [(n.national, str% "8")], .s8,
     .leaf n.exampleNumber (str% "80021234"), .s8,
     .leaf n.nationalNumberPattern (str% "800[1256]\\d{4}"), .s6], .s4]

/-- what stands before this territory -/
noncomputable def LT_before : List Node :=
  [.l4, .comment, .s4, .comment, .s4, .comment, .s4, .comment, .s4]
/-- its attributes -/
noncomputable def LT_attrs : List (Str × Str) := [(n.id, str% "LT"), (n.countryCode, str% "370"), (n.internationalPrefix, str% "00"), (n.nationalPrefix, str% "0"), (n.nationalPrefixForParsing, str% "[08]"), (n.mobileNumberPortableRegion, str% "true")]
/-- its content -/
noncomputable def LT : List Node :=
  [.s6,
   .elem n.availableFormats []
    [.s8, .comment, .s8,
     .elem n.numberFormat [(n.pattern, str% "(\\d)(\\d{3})(\\d{4})"), (n.nationalPrefixFormattingRule, str% "($NP-$FG)"), (n.nationalPrefixOptionalWhenFormatting, str% "true")]
      [.s10,
       .leaf n.leadingDigits (str% "52[0-7]"), .s10,
       .leaf n.format (str% "$1 $2 $3"), .s8], .s8, .comment, .s8,
     .elem n.numberFormat [(n.pattern, str% "(\\d{3})(\\d{2})(\\d{3})"), (n.nationalPrefixFormattingRule, str% "$NP $FG"), (n.nationalPrefixOptionalWhenFormatting, str% "true")]
      [.s10,
       .leaf n.leadingDigits (str% "[7-9]"), .s10,
       .leaf n.format (str% "$1 $2 $3"), .s8], .s8, .comment, .s8,
     .elem n.numberFormat [(n.pattern, str% "(\\d{2})(\\d{6})"), (n.nationalPrefixFormattingRule, str% "($NP-$FG)"), (n.nationalPrefixOptionalWhenFormatting, str% "true")]
      [.s10,
       .leaf n.leadingDigits (str% "\n            37|\n            4(?:\n              [15]|\n              6[1-8]\n            )\n          "), .s10,
       .leaf n.format (str% "$1 $2"), .s8], .s8, .comment, .s8,
     .elem n.numberFormat [(n.pattern, str% "(\\d{3})(\\d{5})"), (n.nationalPrefixFormattingRule, str% "($NP-$FG)"), (n.nationalPrefixOptionalWhenFormatting, str% "true")]
      [.s10,
       .leaf n.leadingDigits (str% "[3-6]"), .s10,
       .leaf n.format (str% "$1 $2"), .s8], .s6], .s6,
   .elem n.generalDesc []
    [.s8,
     .leaf n.nationalNumberPattern (str% "\n          (?:\n            [3469]\\d|\n            52|\n            [78]0\n          )\\d{6}\n        "), .s6], .s6,
   .elem n.fixedLine []
    [.s8,
     .empty n.possibleLengths [(n.national, str% "8")], .s8,
     .leaf n.exampleNumber (str% "31234567"), .s8,
     .leaf n.nationalNumberPattern (str% "\n          (?:\n            3[1478]|\n            4[124-6]|\n            52\n          )\\d{6}\n        "), .s6], .s6,
   .elem n.mobile []
    [.s8,
     .empty n.possibleLengths [(n.national, str% "8")], .s8,
     .leaf n.exampleNumber (str% "61234567"), .s8,
     .leaf n.nationalNumberPattern (str% "6\\d{7}"), .s6], .s6,
   .elem n.tollFree []
    [.s8,
     .empty n.possibleLengths [(n.national, str% "8")], .s8,
     .leaf n.exampleNumber (str% "80012345"), .s8,
     .leaf n.nationalNumberPattern (str% "80[02]\\d{5}"), .s6], .s6,
   .elem n.premiumRate []
    [.s8,
     .empty n.possibleLengths [(n.national, str% "8")], .s8,
     .leaf n.exampleNumber (str% "90012345"), .s8,
     .leaf n.nationalNumberPattern (str% "\n          9(?:\n            0[0239]|\n            10\n          )\\d{5}\n        "), .s6], .s6,
   .elem n.sharedCost []
    [.s8,
     .empty n.possibleLengths [(n.national, str% "8")], .s8,
     .leaf n.exampleNumber (str% "80812345"), .s8,
     .leaf n.nationalNumberPattern (str% "808\\d{5}"), .s6], .s6,
   .elem n.personalNumber []
    [.s8,
     .empty n.possibleLengths [(n.national, str% "8")], .s8,
     .leaf n.exampleNumber (str% "70012345"), .s8,
     .leaf n.nationalNumberPattern (str% "70[05]\\d{5}"), .s6], .s6,
   .elem n.voip []
    [.s8,
     .empty n.possibleLengths [(n.national, str% "8")], .s8,
     .leaf n.exampleNumber (str% "80123456"), .s8,
     .leaf n.nationalNumberPattern (str% "[89]01\\d{5}"), .s6], .s6, .comment, .s6,
   .elem n.uan []
    [.s8,
     .empty n.possibleLengths [(n.national, str% "8")], .s8,
     .leaf n.exampleNumber (str% "70712345"), .s8,
     .leaf n.nationalNumberPattern (str% "70[67]\\d{5}"), .s6], .s4]

/-- what stands before this territory -/
noncomputable def LU_before : List Node :=
  [.l4, .comment, .s4, .comment, .s4, .comment, .s4]
/-- its attributes -/
noncomputable def LU_attrs : List (Str × Str) := [(n.id, str% "LU"), (n.countryCode, str% "352"), (n.internationalPrefix, str% "00"), (n.nationalPrefixForParsing, str% "(15(?:0[06]|1[12]|[35]5|4[04]|6[26]|77|88|99)\\d)"), (n.mobileNumberPortableRegion, str% "true")]
/-- its content -/
noncomputable def LU : List Node :=
  [.s6,
   .elem n.availableFormats []
    [.s8, .comment, .s8,
     .elem n.numberFormat [(n.pattern, str% "(\\d{2})(\\d{3})"), (n.carrierCodeFormattingRule, str% "$CC $FG")]
      [.s10,
       .leaf n.leadingDigits (str% "\n            2(?:\n              0[2-689]|\n              [2-9]\n            )|\n            [3-57]|\n            8(?:\n              0[2-9]|\n              [13-9]\n            )|\n            9(?:\n              0[89]|\n              [2-579]\n            )\n          "), .s10,
       .leaf n.format (str% "$1 $2"), .s8], .s8, .comment, .s8,
     .elem n.numberFormat [(n.pattern, str% "(\\d{2})(\\d{2})(\\d{2})"), (n.carrierCodeFormattingRule, str% "$CC $FG")]
      [.s10,
       .leaf n.leadingDigits (str% "\n            2(?:\n              0[2-689]|\n              [2-9]\n            )|\n            [3-57]|\n            8(?:\n              0[2-9]|\n              [13-9]\n            )|\n            9(?:\n              0[89]|\n              [2-579]\n            )\n          "), .s10,
       .leaf n.format (str% "$1 $2 $3"), .s8], .s8, .comment, .s8,
     .elem n.numberFormat [(n.pattern, str% "(\\d{2})(\\d{2})(\\d{3})"), (n.carrierCodeFormattingRule, str% "$CC $FG")]
      [.s10,
       .leaf n.leadingDigits (str% "20[2-689]"), .s10,
       .leaf n.format (str% "$1 $2 $3"), .s8], .s8, .comment, .s8,
     .elem n.numberFormat [(n.pattern, str% "(\\d{2})(\\d{2})(\\d{2})(\\d{1,2})"), (n.carrierCodeFormattingRule, str% "$CC $FG")]
      [.s10,
       .leaf n.leadingDigits (str% "20"), .s10,
       .leaf n.format (str% "$1 $2 $3 $4"), .s8], .s8, .comment, .s8,
     .elem n.numberFormat [(n.pattern, str% "(\\d{2})(\\d{2})(\\d{2})(\\d{1,5})"), (n.carrierCodeFormattingRule, str% "$CC $FG")]
      [.s10,
       .leaf n.leadingDigits (str% "\n            [3-57]|\n            8[13-9]|\n            9(?:\n              0[89]|\n              [2-579]\n            )|\n            (?:\n              2|\n              80\n            )[2-9]\n          "), .s10,
       .leaf n.format (str% "$1 $2 $3 $4"), .s8], .s8, .comment, .s8,
     .elem n.numberFormat [(n.pattern, str% "(\\d{3})(\\d{2})(\\d{3})"), (n.carrierCodeFormattingRule, str% "$CC $FG")]
      [.s10,
       .leaf n.leadingDigits (str% "\n            80[01]|\n            90[015]\n          "), .s10,
       .leaf n.format (str% "$1 $2 $3"), .s8], .s8, .comment, .s8,
     .elem n.numberFormat [(n.pattern, str% "(\\d{2})(\\d{2})(\\d{2})(\\d{3})"), (n.carrierCodeFormattingRule, str% "$CC $FG")]
      [.s10,
       .leaf n.leadingDigits (str% "20"), .s10,
       .leaf n.format (str% "$1 $2 $3 $4"), .s8], .s8, .comment, .s8,
     .elem n.numberFormat [(n.pattern, str% "(\\d{3})(\\d{3})(\\d{3})"), (n.carrierCodeFormattingRule, str% "$CC $FG")]
      [.s10,
       .leaf n.leadingDigits (str% "6"), .s10,
       .leaf n.format (str% "$1 $2 $3"), .s8], .s8, .comment, .s8,
     .elem n.numberFormat [(n.pattern, str% "(\\d{2})(\\d{2})(\\d{2})(\\d{2})(\\d{1,2})"), (n.carrierCodeFormattingRule, str% "$CC $FG")]
      [.s10,
       .leaf n.leadingDigits (str% "20"), .s10,
       .leaf n.format (str% "$1 $2 $3 $4 $5"), .s8], .s6], .s6,
   .elem n.generalDesc []
    [.s8,
     .leaf n.nationalNumberPattern (str% "\n          35[013-9]\\d{4,8}|\n          6\\d{8}|\n          35\\d{2,4}|\n          (?:\n            [2457-9]\\d|\n            3[0-46-9]\n          )\\d{2,9}\n        "), .s6], .s6, .comment, .s6,
   .elem n.fixedLine []
    [.s8,
     .empty n.possibleLengths [(n.national, str% "[4-11]")], .s8,
     .leaf n.exampleNumber (str% "27123456"), .s8,
     .leaf n.nationalNumberPattern (str% "\n          (?:\n            35[013-9]|\n            80[2-9]|\n            90[89]\n          )\\d{1,8}|\n          (?:\n            2[2-9]|\n            3[0-46-9]|\n            [457]\\d|\n            8[13-9]|\n            9[2-579]\n          )\\d{2,9}\n        "), .s6], .s6, .comment, .s6,
   .elem n.mobile []
    [.s8,
     .empty n.possibleLengths [(n.national, str% "9")], .s8,
     .leaf n.exampleNumber (str% "628123456"), .s8,
     .leaf n.nationalNumberPattern (str% "\n          6(?:\n            [26][18]|\n            5[1568]|\n            7[189]|\n            81|\n            9[128]\n          )\\d{6}\n        "), .s6], .s6,
   .elem n.tollFree []
    [.s8,
     .empty n.possibleLengths [(n.national, str% "8")], .s8,
     .leaf n.exampleNumber (str% "80012345"), .s8,
     .leaf n.nationalNumberPattern (str% "800\\d{5}"), .s6], .s6,
   .elem n.premiumRate []
    [.s8,
     .empty n.possibleLengths [(n.national, str% "8")], .s8,
     .leaf n.exampleNumber (str% "90012345"), .s8,
     .leaf n.nationalNumberPattern (str% "90[015]\\d{5}"), .s6], .s6,
   .elem n.sharedCost []
    [.s8,
     .empty n.possibleLengths [(n.national, str% "8")], .s8,
     .leaf n.exampleNumber (str% "80112345"), .s8,
     .leaf n.nationalNumberPattern (str% "801\\d{5}"), .s6], .s6, .comment, .s6,
   .elem n.voip []
    [.s8,
     .empty n.possibleLengths [(n.national, str% "[4-10]")], .s8,
     .leaf n.exampleNumber (str% "20201234"), .s8,
     .leaf n.nationalNumberPattern (str% "\n          20(?:\n            1\\d{5}|\n            [2-689]\\d{1,7}\n          )\n        "), .s6], .s4]

/-- what stands before this territory -/
noncomputable def LV_before : List Node :=
  [.l4, .comment, .s4, .comment, .s4, .comment, .s4]
/-- its attributes -/
noncomputable def LV_attrs : List (Str × Str) := [(n.id, str% "LV"), (n.countryCode, str% "371"), (n.internationalPrefix, str% "00"), (n.mobileNumberPortableRegion, str% "true")]
/-- its content -/
noncomputable def LV : List Node :=
  [.s6,
   .elem n.availableFormats []
    [.s8,
     .elem n.numberFormat [(n.pattern, str% "(\\d{2})(\\d{3})(\\d{3})")]
      [.s10,
       .leaf n.leadingDigits (str% "\n            [2679]|\n            8[01]\n          "), .s10,
       .leaf n.format (str% "$1 $2 $3"), .s8], .s6], .s6,
   .elem n.generalDesc []
    [.s8,
     .leaf n.nationalNumberPattern (str% "\n          (?:\n            [268]\\d|\n            78|\n            90\n          )\\d{6}\n        "), .s6], .s6,
   .elem n.fixedLine []
    [.s8,
     .empty n.possibleLengths [(n.national, str% "8")], .s8,
     .leaf n.exampleNumber (str% "63123456"), .s8,
     .leaf n.nationalNumberPattern (str% "6\\d{7}"), .s6], .s6,
   .elem n.mobile []
    [.s8,
     .empty n.possibleLengths [(n.national, str% "8")], .s8,
     .leaf n.exampleNumber (str% "21234567"), .s8,
     .leaf n.nationalNumberPattern (str% "\n          2333[0-8]\\d{3}|\n          2(?:\n            [0-24-9]\\d\\d|\n            3(?:\n              0[07]|\n              [14-9]\\d|\n              2[02-9]|\n              3[0-24-9]\n            )\n          )\\d{4}\n        "), .s6], .s6,
   .elem n.tollFree []
    [.s8,
     .empty n.possibleLengths [(n.national, str% "8")], .s8,
     .leaf n.exampleNumber (str% "80123456"), .s8,
     .leaf n.nationalNumberPattern (str% "80\\d{6}"), .s6], .s6,
   .elem n.premiumRate []
    [.s8,
     .empty n.possibleLengths [(n.national, str% "8")], .s8,
     .leaf n.exampleNumber (str% "90123456"), .s8,
     .leaf n.nationalNumberPattern (str% "90\\d{6}"), .s6], .s6,
   .elem n.sharedCost []
    [.s8,
     .empty n.possibleLengths [(n.national, str% "8")], .s8,
     .leaf n.exampleNumber (str% "81123456"), .s8,
     .leaf n.nationalNumberPattern (str% "81\\d{6}"), .s6], .s4]

/-- what stands before this territory -/
noncomputable def LY_before : List Node :=
  [.l4, .comment, .s4, .comment, .s4, .comment, .s4]
/-- its attributes -/
noncomputable def LY_attrs : List (Str × Str) := [(n.id, str% "LY"), (n.countryCode, str% "218"), (n.internationalPrefix, str% "00"), (n.nationalPrefix, str% "0")]
/-- its content -/
noncomputable def LY : List Node :=
  [.s6,
   .elem n.availableFormats []
    [.s8,
     .elem n.numberFormat [(n.pattern, str% "(\\d{2})(\\d{7})"), (n.nationalPrefixFormattingRule, str% "$NP$FG")]
      [.s10,
       .leaf n.leadingDigits (str% "[2-9]"), .s10,
       .leaf n.format (str% "$1-$2"), .s8], .s6], .s6,
   .elem n.generalDesc []
    [.s8,
     .leaf n.nationalNumberPattern (str% "[2-9]\\d{8}"), .s6], .s6,
   .elem n.fixedLine []
    [.s8,
     .empty n.possibleLengths [(n.national, str% "9"), (n.localOnly, str% "7")], .s8,
     .leaf n.exampleNumber (str% "212345678"), .s8,
     .leaf n.nationalNumberPattern (str% "\n          (?:\n            2(?:\n              0[56]|\n              [1-6]\\d|\n              7[124579]|\n              8[124]\n            )|\n            3(?:\n              1\\d|\n              2[2356]\n            )|\n            4(?:\n              [17]\\d|\n              2[1-357]|\n              5[2-4]|\n              8[124]\n            )|\n            5(?:\n              [1347]\\d|\n              2[1-469]|\n              5[13-5]|\n              8[1-4]\n            )|\n            6(?:\n              [1-479]\\d|\n              5[2-57]|\n              8[1-5]\n            )|\n            7(?:\n              [13]\\d|\n              2[13-79]\n            )|\n            8(?:\n              [124]\\d|\n              5[124]|\n              84\n            )\n          )\\d{6}\n        "), .s6], .s6, .comment, .s6,
   .elem n.mobile []
    [.s8,
     .empty n.possibleLengths [(n.national, str% "9")], .s8,
     .leaf n.exampleNumber (str% "912345678"), .s8,
     .leaf n.nationalNumberPattern (str% "9[1-6]\\d{7}"), .s6], .s4]

/-- what stands before this territory -/
noncomputable def MA_before : List Node :=
  [.l4, .comment, .s4, .comment, .s4, .comment, .s4, .comment, .s4, .comment, .s4, .comment, .s4]
/-- its attributes -/
noncomputable def MA_attrs : List (Str × Str) := [(n.id, str% "MA"), (n.mainCountryForCode, str% "true"), (n.countryCode, str% "212"), (n.leadingDigits, str% "[5-8]"), (n.internationalPrefix, str% "00"), (n.nationalPrefix, str% "0"), (n.mobileNumberPortableRegion, str% "true")]
/-- its content -/
noncomputable def MA : List Node :=
  [.s6,
   .elem n.availableFormats []
    [.s8,
     .elem n.numberFormat [(n.pattern, str% "(\\d{4})(\\d{5})"), (n.nationalPrefixFormattingRule, str% "$NP$FG")]
      [.s10,
       .leaf n.leadingDigits (str% "892"), .s10,
       .leaf n.format (str% "$1-$2"), .s8], .s8,
     .elem n.numberFormat [(n.pattern, str% "(\\d{2})(\\d{7})"), (n.nationalPrefixFormattingRule, str% "$NP$FG")]
      [.s10,
       .leaf n.leadingDigits (str% "\n            8(?:\n              0[0-7]|\n              9\n            )\n          "), .s10,
       .leaf n.format (str% "$1-$2"), .s8], .s8,
     .elem n.numberFormat [(n.pattern, str% "(\\d)(\\d{2})(\\d{2})(\\d{2})(\\d{2})"), (n.nationalPrefixFormattingRule, str% "$NP$FG")]
      [.s10,
       .leaf n.leadingDigits (str% "[5-8]"), .s10,
       .leaf n.format (str% "$1 $2 $3 $4 $5"), .s8], .s6], .s6,
   .elem n.generalDesc []
    [.s8,
     .leaf n.nationalNumberPattern (str% "[5-8]\\d{8}"), .s6], .s6, .comment, .s6,
   .elem n.fixedLine []
    [.s8,
     .empty n.possibleLengths [(n.national, str% "9")], .s8,
     .leaf n.exampleNumber (str% "520123456"), .s8,
     .leaf n.nationalNumberPattern (str% "\n          5(?:\n            (?:\n              18|\n              4[0679]|\n              5[03]\n            )\\d|\n            2(?:\n              [0-25-79]\\d|\n              3[1-578]|\n              4[02-46-8]|\n              8[0235-9]\n            )|\n            3(?:\n              [0-47]\\d|\n              5[02-9]|\n              6[02-8]|\n              8[014-9]|\n              9[3-9]\n            )\n          )\\d{5}\n        "), .s6], .s6, .comment, .s6,
   .elem n.mobile []
    [.s8,
     .empty n.possibleLengths [(n.national, str% "9")], .s8,
     .leaf n.exampleNumber (str% "650123456"), .s8,
     .leaf n.nationalNumberPattern (str% "\n          (?:\n            6(?:\n              [0-79]\\d|\n              8[0-247-9]\n            )|\n            7(?:\n              [016-8]\\d|\n              2[0-8]|\n              5[0-5]\n            )\n          )\\d{6}\n        "), .s6], .s6,
   .elem n.tollFree []
    [.s8,
     .empty n.possibleLengths [(n.national, str% "9")], .s8,
     .leaf n.exampleNumber (str% "801234567"), .s8,
     .leaf n.nationalNumberPattern (str% "80[0-7]\\d{6}"), .s6], .s6,
   .elem n.premiumRate []
    [.s8,
     .empty n.possibleLengths [(n.national, str% "9")], .s8,
     .leaf n.exampleNumber (str% "891234567"), .s8,
     .leaf n.nationalNumberPattern (str% "89\\d{7}"), .s6], .s6, .comment, .s6,
   .elem n.voip []
    [.s8,
     .empty n.possibleLengths [(n.national, str% "9")], .s8,
     .leaf n.exampleNumber (str% "592401234"), .s8,
     .leaf n.nationalNumberPattern (str% "\n          (?:\n            592(?:\n              4[0-2]|\n              93\n            )|\n            80[89]\\d\\d\n          )\\d{4}\n        "), .s6], .s4]

/-- what stands before this territory -/
noncomputable def MC_before : List Node :=
  [.l4, .comment, .s4, .comment, .s4, .comment, .s4]
/-- its attributes -/
noncomputable def MC_attrs : List (Str × Str) := [(n.id, str% "MC"), (n.countryCode, str% "377"), (n.internationalPrefix, str% "00"), (n.nationalPrefix, str% "0")]
/-- its content -/
noncomputable def MC : List Node :=
  [.s6,
   .elem n.availableFormats []
    [.s8, .comment, .s8,
     .elem n.numberFormat [(n.pattern, str% "(\\d{3})(\\d{3})(\\d{2})")]
      [.s10,
       .leaf n.leadingDigits (str% "87"), .s10,
       .leaf n.format (str% "$1 $2 $3"), .s10,
       .leaf n.intlFormat (str% "NA"), .s8], .s8, .comment, .s8,
     .elem n.numberFormat [(n.pattern, str% "(\\d{2})(\\d{3})(\\d{3})"), (n.nationalPrefixFormattingRule, str% "$NP$FG")]
      [.s10,
       .leaf n.leadingDigits (str% "4"), .s10,
       .leaf n.format (str% "$1 $2 $3"), .s8], .s8, .comment, .s8,
     .elem n.numberFormat [(n.pattern, str% "(\\d{2})(\\d{2})(\\d{2})(\\d{2})")]
      [.s10,
       .leaf n.leadingDigits (str% "[389]"), .s10,
       .leaf n.format (str% "$1 $2 $3 $4"), .s8], .s8, .comment, .s8,
     .elem n.numberFormat [(n.pattern, str% "(\\d)(\\d{2})(\\d{2})(\\d{2})(\\d{2})"), (n.nationalPrefixFormattingRule, str% "$NP$FG")]
      [.s10,
       .leaf n.leadingDigits (str% "[67]"), .s10,
       .leaf n.format (str% "$1 $2 $3 $4 $5"), .s8], .s6], .s6,
   .elem n.generalDesc []
    [.s8,
     .leaf n.nationalNumberPattern (str% "\n          (?:\n            [3489]|\n            [67]\\d\n          )\\d{7}\n        "), .s6], .s6,
   .elem n.noInternationalDialling []
    [.s8,
     .empty n.possibleLengths [(n.national, str% "8")], .s8,
     .leaf n.nationalNumberPattern (str% "8[07]0\\d{5}"), .s6], .s6, .comment, .s6,
   .elem n.fixedLine []
    [.s8,
     .empty n.possibleLengths [(n.national, str% "8")], .s8,
     .leaf n.exampleNumber (str% "99123456"), .s8,
     .leaf n.nationalNumberPattern (str% "\n          (?:\n            870|\n            9[2-47-9]\\d\n          )\\d{5}\n        "), .s6], .s6, .comment, .s6,
   .elem n.mobile []
    [.s8,
     .empty n.possibleLengths [(n.national, str% "8,9")], .s8,
     .leaf n.exampleNumber (str% "612345678"), .s8,
     .leaf n.nationalNumberPattern (str% "\n          4(?:\n            [46]\\d|\n            5[1-9]\n          )\\d{5}|\n          (?:\n            3|\n            [67]\\d\n          )\\d{7}\n        "), .s6], .s6,
   .elem n.tollFree []
    [.s8,
     .empty n.possibleLengths [(n.national, str% "8")], .s8,
     .leaf n.exampleNumber (str% "90123456"), .s8,
     .leaf n.nationalNumberPattern (str% "\n          (?:\n            800|\n            90\\d\n          )\\d{5}\n        "), .s6], .s4]

/-- what stands before this territory -/
noncomputable def MD_before : List Node :=
  [.l4, .comment, .s4, .comment, .s4, .comment, .s4, .comment, .s4, .comment, .s4, .comment, .s4, .comment, .s4]
/-- its attributes -/
noncomputable def MD_attrs : List (Str × Str) := [(n.id, str% "MD"), (n.countryCode, str% "373"), (n.internationalPrefix, str% "00"), (n.nationalPrefix, str% "0"), (n.mobileNumberPortableRegion, str% "true")]
/-- its content -/
noncomputable def MD : List Node :=
  [.s6,
   .elem n.availableFormats []
    [.s8,
     .elem n.numberFormat [(n.pattern, str% "(\\d{3})(\\d{5})"), (n.nationalPrefixFormattingRule, str% "$NP$FG")]
      [.s10,
       .leaf n.leadingDigits (str% "[89]"), .s10,
       .leaf n.format (str% "$1 $2"), .s8], .s8,
     .elem n.numberFormat [(n.pattern, str% "(\\d{2})(\\d{3})(\\d{3})"), (n.nationalPrefixFormattingRule, str% "$NP$FG")]
      [.s10,
       .leaf n.leadingDigits (str% "\n            22|\n            3\n          "), .s10,
       .leaf n.format (str% "$1 $2 $3"), .s8], .s8,
     .elem n.numberFormat [(n.pattern, str% "(\\d{3})(\\d{2})(\\d{3})"), (n.nationalPrefixFormattingRule, str% "$NP$FG")]
      [.s10,
       .leaf n.leadingDigits (str% "[25-7]"), .s10,
       .leaf n.format (str% "$1 $2 $3"), .s8], .s6], .s6,
   .elem n.generalDesc []
    [.s8,
     .leaf n.nationalNumberPattern (str% "\n          (?:\n            [235-7]\\d|\n            [89]0\n          )\\d{6}\n        "), .s6], .s6,
   .elem n.fixedLine []
    [.s8,
     .empty n.possibleLengths [(n.national, str% "8")], .s8,
     .leaf n.exampleNumber (str% "22212345"), .s8,
     .leaf n.nationalNumberPattern (str% "\n          (?:\n            (?:\n              2[1-9]|\n              3[1-79]\n            )\\d|\n            5(?:\n              33|\n              5[257]\n            )\n          )\\d{5}\n        "), .s6], .s6, .comment, .s6,
   .elem n.mobile []
    [.s8,
     .empty n.possibleLengths [(n.national, str% "8")], .s8,
     .leaf n.exampleNumber (str% "62112345"), .s8,
     .leaf n.nationalNumberPattern (str% "\n          562\\d{5}|\n          (?:\n            6\\d|\n            7[16-9]\n          )\\d{6}\n        "), .s6], .s6,
   .elem n.tollFree []
    [.s8,
     .empty n.possibleLengths [(n.national, str% "8")], .s8,
     .leaf n.exampleNumber (str% "80012345"), .s8,
     .leaf n.nationalNumberPattern (str% "800\\d{5}"), .s6], .s6,
   .elem n.premiumRate []
    [.s8,
     .empty n.possibleLengths [(n.national, str% "8")], .s8,
     .leaf n.exampleNumber (str% "90012345"), .s8,
     .leaf n.nationalNumberPattern (str% "90[056]\\d{5}"), .s6], .s6, .comment, .s6,
   .elem n.sharedCost []
    [.s8,
     .empty n.possibleLengths [(n.national, str% "8")], .s8,
     .leaf n.exampleNumber (str% "80812345"), .s8,
     .leaf n.nationalNumberPattern (str% "808\\d{5}"), .s6], .s6, .comment, .s6,
   .elem n.voip []
    [.s8,
     .empty n.possibleLengths [(n.national, str% "8")], .s8,
     .leaf n.exampleNumber (str% "30123456"), .s8,
     .leaf n.nationalNumberPattern (str% "3[08]\\d{6}"), .s6], .s6,
   .elem n.uan []
    [.s8,
     .empty n.possibleLengths [(n.national, str% "8")], .s8,
     .leaf n.exampleNumber (str% "80312345"), .s8,
     .leaf n.nationalNumberPattern (str% "803\\d{5}"), .s6], .s4]

/-- what stands before this territory -/
noncomputable def ME_before : List Node :=
  [.l4, .comment, .s4, .comment, .s4, .comment, .s4, .comment, .s4, .comment, .s4]
/-- its attributes -/
noncomputable def ME_attrs : List (Str × Str) := [(n.id, str% "ME"), (n.countryCode, str% "382"), (n.internationalPrefix, str% "00"), (n.nationalPrefix, str% "0")]
/-- its content -/
noncomputable def ME : List Node :=
  [.s6,
   .elem n.availableFormats []
    [.s8,
     .elem n.numberFormat [(n.pattern, str% "(\\d{2})(\\d{3})(\\d{3,4})"), (n.nationalPrefixFormattingRule, str% "$NP$FG")]
      [.s10,
       .leaf n.leadingDigits (str% "[2-9]"), .s10,
       .leaf n.format (str% "$1 $2 $3"), .s8], .s6], .s6,
   .elem n.generalDesc []
    [.s8,
     .leaf n.nationalNumberPattern (str% "\n          (?:\n            20|\n            [3-79]\\d\n          )\\d{6}|\n          80\\d{6,7}\n        "), .s6], .s6, .comment, .s6,
   .elem n.fixedLine []
    [.s8,
     .empty n.possibleLengths [(n.national, str% "8"), (n.localOnly, str% "6")], .s8,
     .leaf n.exampleNumber (str% "30234567"), .s8,
     .leaf n.nationalNumberPattern (str% "\n          (?:\n            20[2-8]|\n            3(?:\n              [0-2][2-7]|\n              3[24-7]\n            )|\n            4(?:\n              0[2-467]|\n              1[2467]\n            )|\n            5(?:\n              0[2467]|\n              1[24-7]|\n              2[2-467]\n            )\n          )\\d{5}\n        "), .s6], .s6, .comment, .s6,
   .elem n.mobile []
    [.s8,
     .empty n.possibleLengths [(n.national, str% "8")], .s8,
     .leaf n.exampleNumber (str% "60123456"), .s8,
     .leaf n.nationalNumberPattern (str% "\n          6(?:\n            [07-9]\\d|\n            3[024]|\n            6[0-25]\n          )\\d{5}\n        "), .s6], .s6,
   .elem n.tollFree []
    [.s8,
     .empty n.possibleLengths [(n.national, str% "8,9")], .s8,
     .leaf n.exampleNumber (str% "80080002"), .s8,
     .leaf n.nationalNumberPattern (str% "\n          80(?:\n            [0-2578]|\n            9\\d\n          )\\d{5}\n        "), .s6], .s6, .comment, .s6,
   .elem n.premiumRate []
    [.s8,
     .empty n.possibleLengths [(n.national, str% "8")], .s8,
     .leaf n.exampleNumber (str% "94515151"), .s8,
     .leaf n.nationalNumberPattern (str% "\n          9(?:\n            4[1568]|\n            5[178]\n          )\\d{5}\n        "), .s6], .s6,
   .elem n.voip []
    [.s8,
     .empty n.possibleLengths [(n.national, str% "8")], .s8,
     .leaf n.exampleNumber (str% "78108780"), .s8,
     .leaf n.nationalNumberPattern (str% "78[1-49]\\d{5}"), .s6], .s6,
   .elem n.uan []
    [.s8,
     .empty n.possibleLengths [(n.national, str% "8")], .s8,
     .leaf n.exampleNumber (str% "77273012"), .s8,
     .leaf n.nationalNumberPattern (str% "77[1-9]\\d{5}"), .s6], .s4]

/-- what stands before this territory -/
noncomputable def MF_before : List Node :=
  [.l4, .comment, .s4, .comment, .s4, .comment, .s4, .comment, .s4, .comment, .s4, .comment, .s4]
/-- its attributes -/
noncomputable def MF_attrs : List (Str × Str) := [(n.id, str% "MF"), (n.countryCode, str% "590"), (n.internationalPrefix, str% "00"), (n.nationalPrefix, str% "0"), (n.mobileNumberPortableRegion, str% "true")]
/-- its content -/
noncomputable def MF : List Node :=
  [.s6,
   .elem n.generalDesc []
    [.s8,
     .leaf n.nationalNumberPattern (str% "\n          7090\\d{5}|\n          (?:\n            [56]9|\n            [89]\\d\n          )\\d{7}\n        "), .s6], .s6,
   .elem n.fixedLine []
    [.s8,
     .empty n.possibleLengths [(n.national, str% "9")], .s8,
     .leaf n.exampleNumber (str% "590271234"), .s8,
     .leaf n.nationalNumberPattern (str% "\n          (?:\n            59(?:\n              0(?:\n                0[079]|\n                [14]3|\n                [27][79]|\n                3[03-7]|\n                5[0-268]|\n                87\n              )|\n              87\\d\n            )|\n            80[6-9]\\d\\d\n          )\\d{4}\n        "), .s6], .s6, .comment, .s6,
   .elem n.mobile []
    [.s8,
     .empty n.possibleLengths [(n.national, str% "9")], .s8,
     .leaf n.exampleNumber (str% "690001234"), .s8,
     .leaf n.nationalNumberPattern (str% "\n          (?:\n            69(?:\n              0\\d\\d|\n              1(?:\n                2[2-9]|\n                3[0-5]\n              )\n            )|\n            7090[0-4]\n          )\\d{4}\n        "), .s6], .s6, .comment, .s6,
   .elem n.tollFree []
    [.s8,
     .empty n.possibleLengths [(n.national, str% "9")], .s8,
     .leaf n.exampleNumber (str% "800012345"), .s8,
     .leaf n.nationalNumberPattern (str% "80[0-5]\\d{6}"), .s6], .s6,
   .elem n.premiumRate []
    [.s8,
     .empty n.possibleLengths [(n.national, str% "9")], .s8,
     .leaf n.exampleNumber (str% "810123456"), .s8,
     .leaf n.nationalNumberPattern (str% "8[129]\\d{7}"), .s6], .s6,
   .elem n.voip []
    [.s8,
     .empty n.possibleLengths [(n.national, str% "9")], .s8,
     .leaf n.exampleNumber (str% "976012345"), .s8,
     .leaf n.nationalNumberPattern (str% "\n          9(?:\n            (?:\n              39[5-7]|\n              76[018]\n            )\\d|\n            475[0-6]\n          )\\d{4}\n        "), .s6], .s4]

/-- the nodes of this module -/
noncomputable def chunk09 : List (List Node × List (Str × Str) × List Node) :=
  [(KR_before, KR_attrs, KR), (KW_before, KW_attrs, KW), (KY_before, KY_attrs, KY), (KZ_before, KZ_attrs, KZ),
   (LA_before, LA_attrs, LA), (LB_before, LB_attrs, LB), (LC_before, LC_attrs, LC), (LI_before, LI_attrs, LI),
   (LK_before, LK_attrs, LK), (LR_before, LR_attrs, LR), (LS_before, LS_attrs, LS), (LT_before, LT_attrs, LT),
   (LU_before, LU_attrs, LU), (LV_before, LV_attrs, LV), (LY_before, LY_attrs, LY), (MA_before, MA_attrs, MA),
   (MC_before, MC_attrs, MC), (MD_before, MD_attrs, MD), (ME_before, ME_attrs, ME), (MF_before, MF_attrs, MF)]

end Phone.Data.X
