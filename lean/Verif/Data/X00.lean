import Verif.Data.XNames
/-! Territories of `/repo/assets/PhoneNumberMetadata.xml` as trees. Generated by `tools/gen_xml.py`; do not edit. -/

set_option maxRecDepth 100000
namespace Phone.Data.X
open Phone.Xml

/-- what stands before this territory -/
noncomputable def AC_before : List Node :=
  [.s4, .comment, .s4, .comment, .s4]
/-- its attributes -/
noncomputable def AC_attrs : List (Str × Str) := [(n.id, str% "AC"), (n.countryCode, str% "247"), (n.internationalPrefix, str% "00")]
/-- its content -/
noncomputable def AC : List Node :=
  [.s6,
   .elem n.generalDesc []
    [.s8,
     .leaf n.nationalNumberPattern (str% "\n          (?:\n            [01589]\\d|\n            [46]\n          )\\d{4}\n        "), .s6], .s6,
   .elem n.fixedLine []
    [.s8,
     .empty n.possibleLengths [(n.national, str% "5")], .s8,
     .leaf n.exampleNumber (str% "62889"), .s8,
     .leaf n.nationalNumberPattern (str% "6[2-467]\\d{3}"), .s6], .s6, .comment, .s6,
   .elem n.mobile []
    [.s8,
     .empty n.possibleLengths [(n.national, str% "5")], .s8,
     .leaf n.exampleNumber (str% "40123"), .s8,
     .leaf n.nationalNumberPattern (str% "4\\d{4}"), .s6], .s6, .comment, .s6,
   .elem n.uan []
    [.s8,
     .empty n.possibleLengths [(n.national, str% "6")], .s8,
     .leaf n.exampleNumber (str% "542011"), .s8,
     .leaf n.nationalNumberPattern (str% "\n          (?:\n            0[1-9]|\n            [1589]\\d\n          )\\d{4}\n        "), .s6], .s4]

/-- what stands before this territory -/
noncomputable def AD_before : List Node :=
  [.l4, .comment, .s4, .comment, .s4]
/-- its attributes -/
noncomputable def AD_attrs : List (Str × Str) := [(n.id, str% "AD"), (n.countryCode, str% "376"), (n.internationalPrefix, str% "00")]
/-- its content -/
noncomputable def AD : List Node :=
  [.s6,
   .elem n.availableFormats []
    [.s8,
     .elem n.numberFormat [(n.pattern, str% "(\\d{3})(\\d{3})")]
      [.s10,
       .leaf n.leadingDigits (str% "[135-9]"), .s10,
       .leaf n.format (str% "$1 $2"), .s8], .s8,
     .elem n.numberFormat [(n.pattern, str% "(\\d{4})(\\d{4})")]
      [.s10,
       .leaf n.leadingDigits (str% "1"), .s10,
       .leaf n.format (str% "$1 $2"), .s8], .s8,
     .elem n.numberFormat [(n.pattern, str% "(\\d{3})(\\d{3})(\\d{3})")]
      [.s10,
       .leaf n.leadingDigits (str% "6"), .s10,
       .leaf n.format (str% "$1 $2 $3"), .s8], .s6], .s6,
   .elem n.generalDesc []
    [.s8,
     .leaf n.nationalNumberPattern (str% "\n          (?:\n            1|\n            6\\d\n          )\\d{7}|\n          [135-9]\\d{5}\n        "), .s6], .s6,
   .elem n.noInternationalDialling []
    [.s8,
     .empty n.possibleLengths [(n.national, str% "8")], .s8,
     .leaf n.nationalNumberPattern (str% "1800\\d{4}"), .s6], .s6,
   .elem n.fixedLine []
    [.s8,
     .empty n.possibleLengths [(n.national, str% "6")], .s8,
     .leaf n.exampleNumber (str% "712345"), .s8,
     .leaf n.nationalNumberPattern (str% "[78]\\d{5}"), .s6], .s6,
   .elem n.mobile []
    [.s8,
     .empty n.possibleLengths [(n.national, str% "6,9")], .s8,
     .leaf n.exampleNumber (str% "312345"), .s8,
     .leaf n.nationalNumberPattern (str% "\n          690\\d{6}|\n          [356]\\d{5}\n        "), .s6], .s6, .comment, .s6,
   .elem n.tollFree []
    [.s8,
     .empty n.possibleLengths [(n.national, str% "8")], .s8,
     .leaf n.exampleNumber (str% "18001234"), .s8,
     .leaf n.nationalNumberPattern (str% "180[02]\\d{4}"), .s6], .s6, .comment, .s6,
   .elem n.premiumRate []
    [.s8,
     .empty n.possibleLengths [(n.national, str% "6")], .s8,
     .leaf n.exampleNumber (str% "912345"), .s8,
     .leaf n.nationalNumberPattern (str% "[19]\\d{5}"), .s6], .s4]

/-- what stands before this territory -/
noncomputable def AE_before : List Node :=
  [.l4, .comment, .s4, .comment, .s4]
/-- its attributes -/
noncomputable def AE_attrs : List (Str × Str) := [(n.id, str% "AE"), (n.countryCode, str% "971"), (n.internationalPrefix, str% "00"), (n.nationalPrefix, str% "0")]
/-- its content -/
noncomputable def AE : List Node :=
  [.s6,
   .elem n.availableFormats []
    [.s8,
     .elem n.numberFormat [(n.pattern, str% "(\\d{3})(\\d{2,9})")]
      [.s10,
       .leaf n.leadingDigits (str% "\n            60|\n            8\n          "), .s10,
       .leaf n.format (str% "$1 $2"), .s8], .s8,
     .elem n.numberFormat [(n.pattern, str% "(\\d)(\\d{3})(\\d{4})"), (n.nationalPrefixFormattingRule, str% "$NP$FG")]
      [.s10,
       .leaf n.leadingDigits (str% "\n            [236]|\n            [479][2-8]\n          "), .s10,
       .leaf n.format (str% "$1 $2 $3"), .s8], .s8,
     .elem n.numberFormat [(n.pattern, str% "(\\d{3})(\\d)(\\d{5})")]
      [.s10,
       .leaf n.leadingDigits (str% "[479]"), .s10,
       .leaf n.format (str% "$1 $2 $3"), .s8], .s8,
     .elem n.numberFormat [(n.pattern, str% "(\\d{2})(\\d{3})(\\d{4})"), (n.nationalPrefixFormattingRule, str% "$NP$FG")]
      [.s10,
       .leaf n.leadingDigits (str% "5"), .s10,
       .leaf n.format (str% "$1 $2 $3"), .s8], .s6], .s6,
   .elem n.generalDesc []
    [.s8,
     .leaf n.nationalNumberPattern (str% "\n          (?:\n            [4-7]\\d|\n            9[0-689]\n          )\\d{7}|\n          800\\d{2,9}|\n          [2-4679]\\d{7}\n        "), .s6], .s6,
   .elem n.fixedLine []
    [.s8,
     .empty n.possibleLengths [(n.national, str% "8"), (n.localOnly, str% "7")], .s8,
     .leaf n.exampleNumber (str% "22345678"), .s8,
     .leaf n.nationalNumberPattern (str% "[2-4679][2-8]\\d{6}"), .s6], .s6, .comment, .s6,
   .elem n.mobile []
    [.s8,
     .empty n.possibleLengths [(n.national, str% "9")], .s8,
     .leaf n.exampleNumber (str% "501234567"), .s8,
     .leaf n.nationalNumberPattern (str% "5[02-68]\\d{7}"), .s6], .s6,
   .elem n.tollFree []
    [.s8,
     .empty n.possibleLengths [(n.national, str% "[5-12]")], .s8,
     .leaf n.exampleNumber (str% "800123456"), .s8,
     .leaf n.nationalNumberPattern (str% "\n          400\\d{6}|\n          800\\d{2,9}\n        "), .s6], .s6,
   .elem n.premiumRate []
    [.s8,
     .empty n.possibleLengths [(n.national, str% "9")], .s8,
     .leaf n.exampleNumber (str% "900234567"), .s8,
     .leaf n.nationalNumberPattern (str% "900[02]\\d{5}"), .s6], .s6,
   .elem n.sharedCost []
    [.s8,
     .empty n.possibleLengths [(n.national, str% "9")], .s8,
     .leaf n.exampleNumber (str% "700012345"), .s8,
     .leaf n.nationalNumberPattern (str% "700[05]\\d{5}"), .s6], .s6,
   .elem n.uan []
    [.s8,
     .empty n.possibleLengths [(n.national, str% "9")], .s8,
     .leaf n.exampleNumber (str% "600212345"), .s8,
     .leaf n.nationalNumberPattern (str% "600[25]\\d{5}"), .s6], .s4]

/-- what stands before this territory -/
noncomputable def AF_before : List Node :=
  [.l4, .comment, .s4, .comment, .s4]
/-- its attributes -/
noncomputable def AF_attrs : List (Str × Str) := [(n.id, str% "AF"), (n.countryCode, str% "93"), (n.internationalPrefix, str% "00"), (n.nationalPrefix, str% "0")]
/-- its content -/
noncomputable def AF : List Node :=
  [.s6,
   .elem n.availableFormats []
    [.s8,
     .elem n.numberFormat [(n.pattern, str% "(\\d{3})(\\d{4})")]
      [.s10,
       .leaf n.leadingDigits (str% "[1-9]"), .s10,
       .leaf n.format (str% "$1 $2"), .s10,
       .leaf n.intlFormat (str% "NA"), .s8], .s8, .comment, .s8,
     .elem n.numberFormat [(n.pattern, str% "(\\d{2})(\\d{3})(\\d{4})"), (n.nationalPrefixFormattingRule, str% "$NP$FG")]
      [.s10,
       .leaf n.leadingDigits (str% "[2-7]"), .s10,
       .leaf n.format (str% "$1 $2 $3"), .s8], .s6], .s6,
   .elem n.generalDesc []
    [.s8,
     .leaf n.nationalNumberPattern (str% "[2-7]\\d{8}"), .s6], .s6,
   .elem n.fixedLine []
    [.s8,
     .empty n.possibleLengths [(n.national, str% "9"), (n.localOnly, str% "7")], .s8,
     .leaf n.exampleNumber (str% "234567890"), .s8,
     .leaf n.nationalNumberPattern (str% "\n          (?:\n            [25][0-8]|\n            [34][0-4]|\n            6[0-5]\n          )[2-9]\\d{6}\n        "), .s6], .s6, .comment, .s6,
   .elem n.mobile []
    [.s8,
     .empty n.possibleLengths [(n.national, str% "9"), (n.localOnly, str% "7")], .s8,
     .leaf n.exampleNumber (str% "701234567"), .s8,
     .leaf n.nationalNumberPattern (str% "7\\d{8}"), .s6], .s4]

/-- what stands before this territory -/
noncomputable def AG_before : List Node :=
  [.l4, .comment, .s4, .comment, .s4, .comment, .s4]
/-- its attributes -/
noncomputable def AG_attrs : List (Str × Str) := [(n.id, str% "AG"), (n.countryCode, str% "1"), (n.leadingDigits, str% "268"), (n.internationalPrefix, str% "011"), (n.nationalPrefix, str% "1"), (n.nationalPrefixForParsing, str% "([457]\\d{6})$|1"), (n.nationalPrefixTransformRule, str% "268$1"), (n.mobileNumberPortableRegion, str% "true")]
/-- its content -/
noncomputable def AG : List Node :=
  [.s6,
   .elem n.generalDesc []
    [.s8,
     .leaf n.nationalNumberPattern (str% "\n          (?:\n            268|\n            [58]\\d\\d|\n            900\n          )\\d{7}\n        "), .s6], .s6, .comment, .s6,
   .elem n.fixedLine []
    [.s8,
     .empty n.possibleLengths [(n.national, str% "10"), (n.localOnly, str% "7")], .s8,
     .leaf n.exampleNumber (str% "2684601234"), .s8,
     .leaf n.nationalNumberPattern (str% "\n          268(?:\n            4(?:\n              6[0-38]|\n              84\n            )|\n            56[0-2]\n          )\\d{4}\n        "), .s6], .s6, .comment, .s6,
   .elem n.mobile []
    [.s8,
     .empty n.possibleLengths [(n.national, str% "10"), (n.localOnly, str% "7")], .s8,
     .leaf n.exampleNumber (str% "2684641234"), .s8,
     .leaf n.nationalNumberPattern (str% "\n          268(?:\n            464|\n            7(?:\n              1[3-9]|\n              [28]\\d|\n              3[0246]|\n              64|\n              7[0-689]\n            )\n          )\\d{4}\n        "), .s6], .s6,
   .elem n.pager []
    [.s8,
     .empty n.possibleLengths [(n.national, str% "10"), (n.localOnly, str% "7")], .s8,
     .leaf n.exampleNumber (str% "2684061234"), .s8,
     .leaf n.nationalNumberPattern (str% "26840[69]\\d{4}"), .s6], .s6,
   .elem n.tollFree []
    [.s8,
     .empty n.possibleLengths [(n.national, str% "10")], .s8,
     .leaf n.exampleNumber (str% "8002123456"), .s8,
     .leaf n.nationalNumberPattern (str% "\n          8(?:\n            00|\n            33|\n            44|\n            55|\n            66|\n            77|\n            88\n          )[2-9]\\d{6}\n        "), .s6], .s6,
   .elem n.premiumRate []
    [.s8,
     .empty n.possibleLengths [(n.national, str% "10")], .s8,
     .leaf n.exampleNumber (str% "9002123456"), .s8,
     .leaf n.nationalNumberPattern (str% "900[2-9]\\d{6}"), .s6], .s6, .comment, .s6,
   .elem n.personalNumber []
    [.s8,
     .empty n.possibleLengths [(n.national, str% "10")], .s8,
     .leaf n.exampleNumber (str% "5002345678"), .s8,
     .leaf n.nationalNumberPattern (str% "\n          52(?:\n            3(?:\n              [2-46-9][02-9]\\d|\n              5(?:\n                [02-46-9]\\d|\n                5[0-46-9]\n              )\n            )|\n            4(?:\n              [2-478][02-9]\\d|\n              5(?:\n                [034]\\d|\n                2[024-9]|\n                5[0-46-9]\n              )|\n              6(?:\n                0[1-9]|\n                [2-9]\\d\n              )|\n              9(?:\n                [05-9]\\d|\n                2[0-5]|\n                49\n              )\n            )\n          )\\d{4}|\n          52[34][2-9]1[02-9]\\d{4}|\n          5(?:\n            00|\n            2[125-9]|\n            3[23]|\n            44|\n            66|\n            77|\n            88\n          )[2-9]\\d{6}\n        "), .s6], .s6, .comment, .s6,
   .elem n.voip []
    [.s8,
     .empty n.possibleLengths [(n.national, str% "10"), (n.localOnly, str% "7")], .s8,
     .leaf n.exampleNumber (str% "2684801234"), .s8,
     .leaf n.nationalNumberPattern (str% "26848[01]\\d{4}"), .s6], .s4]

/-- what stands before this territory -/
noncomputable def AI_before : List Node :=
  [.l4, .comment, .s4, .comment, .s4, .comment, .s4]
/-- its attributes -/
noncomputable def AI_attrs : List (Str × Str) := [(n.id, str% "AI"), (n.countryCode, str% "1"), (n.leadingDigits, str% "264"), (n.internationalPrefix, str% "011"), (n.nationalPrefix, str% "1"), (n.nationalPrefixForParsing, str% "([2457]\\d{6})$|1"), (n.nationalPrefixTransformRule, str% "264$1"), (n.mobileNumberPortableRegion, str% "true")]
/-- its content -/
noncomputable def AI : List Node :=
  [.s6,
   .elem n.generalDesc []
    [.s8,
     .leaf n.nationalNumberPattern (str% "\n          (?:\n            264|\n            [58]\\d\\d|\n            900\n          )\\d{7}\n        "), .s6], .s6,
   .elem n.fixedLine []
    [.s8,
     .empty n.possibleLengths [(n.national, str% "10"), (n.localOnly, str% "7")], .s8,
     .leaf n.exampleNumber (str% "2644612345"), .s8,
     .leaf n.nationalNumberPattern (str% "\n          264(?:\n            292|\n            4(?:\n              6[12]|\n              9[78]\n            )\n          )\\d{4}\n        "), .s6], .s6,
   .elem n.mobile []
    [.s8,
     .empty n.possibleLengths [(n.national, str% "10"), (n.localOnly, str% "7")], .s8,
     .leaf n.exampleNumber (str% "2642351234"), .s8,
     .leaf n.nationalNumberPattern (str% "\n          264(?:\n            235|\n            4(?:\n              69|\n              7[67]\n            )|\n            5(?:\n              3[6-9]|\n              8[1-4]\n            )|\n            7(?:\n              29|\n              72\n            )\n          )\\d{4}\n        "), .s6], .s6,
   .elem n.pager []
    [.s8,
     .empty n.possibleLengths [(n.national, str% "10"), (n.localOnly, str% "7")], .s8,
     .leaf n.exampleNumber (str% "2647241234"), .s8,
     .leaf n.nationalNumberPattern (str% "264724\\d{4}"), .s6], .s6,
   .elem n.tollFree []
    [.s8,
     .empty n.possibleLengths [(n.national, str% "10")], .s8,
     .leaf n.exampleNumber (str% "8002123456"), .s8,
     .leaf n.nationalNumberPattern (str% "\n          8(?:\n            00|\n            33|\n            44|\n            55|\n            66|\n            77|\n            88\n          )[2-9]\\d{6}\n        "), .s6], .s6,
   .elem n.premiumRate []
    [.s8,
     .empty n.possibleLengths [(n.national, str% "10")], .s8,
     .leaf n.exampleNumber (str% "9002123456"), .s8,
     .leaf n.nationalNumberPattern (str% "900[2-9]\\d{6}"), .s6], .s6, .comment, .s6,
   .elem n.personalNumber []
    [.s8,
     .empty n.possibleLengths [(n.national, str% "10")], .s8,
     .leaf n.exampleNumber (str% "5002345678"), .s8,
     .leaf n.nationalNumberPattern (str% "\n          52(?:\n            3(?:\n              [2-46-9][02-9]\\d|\n              5(?:\n                [02-46-9]\\d|\n                5[0-46-9]\n              )\n            )|\n            4(?:\n              [2-478][02-9]\\d|\n              5(?:\n                [034]\\d|\n                2[024-9]|\n                5[0-46-9]\n              )|\n              6(?:\n                0[1-9]|\n                [2-9]\\d\n              )|\n              9(?:\n                [05-9]\\d|\n                2[0-5]|\n                49\n              )\n            )\n          )\\d{4}|\n          52[34][2-9]1[02-9]\\d{4}|\n          5(?:\n            00|\n            2[125-9]|\n            3[23]|\n            44|\n            66|\n            77|\n            88\n          )[2-9]\\d{6}\n        "), .s6], .s4]

/-- what stands before this territory -/
noncomputable def AL_before : List Node :=
  [.l4, .comment, .s4, .comment, .s4]
/-- its attributes -/
noncomputable def AL_attrs : List (Str × Str) := [(n.id, str% "AL"), (n.countryCode, str% "355"), (n.internationalPrefix, str% "00"), (n.nationalPrefix, str% "0"), (n.mobileNumberPortableRegion, str% "true")]
/-- its content -/
noncomputable def AL : List Node :=
  [.s6,
   .elem n.availableFormats []
    [.s8, .comment, .s8,
     .elem n.numberFormat [(n.pattern, str% "(\\d{3})(\\d{3,4})"), (n.nationalPrefixFormattingRule, str% "$NP$FG")]
      [.s10,
       .leaf n.leadingDigits (str% "\n            80|\n            9\n          "), .s10,
       .leaf n.format (str% "$1 $2"), .s8], .s8, .comment, .s8,
     .elem n.numberFormat [(n.pattern, str% "(\\d)(\\d{3})(\\d{4})"), (n.nationalPrefixFormattingRule, str% "$NP$FG")]
      [.s10,
       .leaf n.leadingDigits (str% "4[2-6]"), .s10,
       .leaf n.format (str% "$1 $2 $3"), .s8], .s8,
     .elem n.numberFormat [(n.pattern, str% "(\\d{2})(\\d{3})(\\d{3})"), (n.nationalPrefixFormattingRule, str% "$NP$FG")]
      [.s10,
       .leaf n.leadingDigits (str% "\n            [2358][2-5]|\n            4\n          "), .s10,
       .leaf n.format (str% "$1 $2 $3"), .s8], .s8,
     .elem n.numberFormat [(n.pattern, str% "(\\d{3})(\\d{5})"), (n.nationalPrefixFormattingRule, str% "$NP$FG")]
      [.s10,
       .leaf n.leadingDigits (str% "[23578]"), .s10,
       .leaf n.format (str% "$1 $2"), .s8], .s8,
     .elem n.numberFormat [(n.pattern, str% "(\\d{2})(\\d{3})(\\d{4})"), (n.nationalPrefixFormattingRule, str% "$NP$FG")]
      [.s10,
       .leaf n.leadingDigits (str% "6"), .s10,
       .leaf n.format (str% "$1 $2 $3"), .s8], .s6], .s6,
   .elem n.generalDesc []
    [.s8,
     .leaf n.nationalNumberPattern (str% "\n          (?:\n            700\\d\\d|\n            900\n          )\\d{3}|\n          8\\d{5,7}|\n          (?:\n            [2-5]|\n            6\\d\n          )\\d{7}\n        "), .s6], .s6,
   .elem n.fixedLine []
    [.s8,
     .empty n.possibleLengths [(n.national, str% "8"), (n.localOnly, str% "[5-7]")], .s8,
     .leaf n.exampleNumber (str% "22345678"), .s8,
     .leaf n.nationalNumberPattern (str% "\n          4505[0-2]\\d{3}|\n          (?:\n            [2358][16-9]\\d[2-9]|\n            4410\n          )\\d{4}|\n          (?:\n            [2358][2-5][2-9]|\n            4(?:\n              [2-57-9][2-9]|\n              6\\d\n            )\n          )\\d{5}\n        "), .s6], .s6, .comment, .s6,
   .elem n.mobile []
    [.s8,
     .empty n.possibleLengths [(n.national, str% "9")], .s8,
     .leaf n.exampleNumber (str% "672123456"), .s8,
     .leaf n.nationalNumberPattern (str% "\n          6(?:\n            [78][2-9]|\n            9\\d\n          )\\d{6}\n        "), .s6], .s6,
   .elem n.tollFree []
    [.s8,
     .empty n.possibleLengths [(n.national, str% "7")], .s8,
     .leaf n.exampleNumber (str% "8001234"), .s8,
     .leaf n.nationalNumberPattern (str% "800\\d{4}"), .s6], .s6, .comment, .s6,
   .elem n.premiumRate []
    [.s8,
     .empty n.possibleLengths [(n.national, str% "6")], .s8,
     .leaf n.exampleNumber (str% "900123"), .s8,
     .leaf n.nationalNumberPattern (str% "900[1-9]\\d\\d"), .s6], .s6,
   .elem n.sharedCost []
    [.s8,
     .empty n.possibleLengths [(n.national, str% "6")], .s8,
     .leaf n.exampleNumber (str% "808123"), .s8,
     .leaf n.nationalNumberPattern (str% "808[1-9]\\d\\d"), .s6], .s6,
   .elem n.personalNumber []
    [.s8,
     .empty n.possibleLengths [(n.national, str% "8")], .s8,
     .leaf n.exampleNumber (str% "70021234"), .s8,
     .leaf n.nationalNumberPattern (str% "700[2-9]\\d{4}"), .s6], .s4]

/-- what stands before this territory -/
noncomputable def AM_before : List Node :=
  [.l4, .comment, .s4, .comment, .s4, .comment, .s4, .comment, .s4, .comment, .s4]
/-- its attributes -/
noncomputable def AM_attrs : List (Str × Str) := [(n.id, str% "AM"), (n.countryCode, str% "374"), (n.internationalPrefix, str% "00"), (n.nationalPrefix, str% "0"), (n.mobileNumberPortableRegion, str% "true")]
/-- its content -/
noncomputable def AM : List Node :=
  [.s6,
   .elem n.availableFormats []
    [.s8,
     .elem n.numberFormat [(n.pattern, str% "(\\d{3})(\\d{2})(\\d{3})"), (n.nationalPrefixFormattingRule, str% "$NP $FG")]
      [.s10,
       .leaf n.leadingDigits (str% "[89]0"), .s10,
       .leaf n.format (str% "$1 $2 $3"), .s8], .s8,
     .elem n.numberFormat [(n.pattern, str% "(\\d{3})(\\d{5})"), (n.nationalPrefixFormattingRule, str% "($NP$FG)")]
      [.s10,
       .leaf n.leadingDigits (str% "\n            2|\n            3[12]\n          "), .s10,
       .leaf n.format (str% "$1 $2"), .s8], .s8,
     .elem n.numberFormat [(n.pattern, str% "(\\d{2})(\\d{6})"), (n.nationalPrefixFormattingRule, str% "($NP$FG)")]
      [.s10,
       .leaf n.leadingDigits (str% "\n            1|\n            47\n          "), .s10,
       .leaf n.format (str% "$1 $2"), .s8], .s8,
     .elem n.numberFormat [(n.pattern, str% "(\\d{2})(\\d{6})"), (n.nationalPrefixFormattingRule, str% "$NP$FG")]
      [.s10,
       .leaf n.leadingDigits (str% "[3-9]"), .s10,
       .leaf n.format (str% "$1 $2"), .s8], .s6], .s6,
   .elem n.generalDesc []
    [.s8,
     .leaf n.nationalNumberPattern (str% "\n          (?:\n            [1-489]\\d|\n            55|\n            60|\n            77\n          )\\d{6}\n        "), .s6], .s6, .comment, .s6,
   .elem n.fixedLine []
    [.s8,
     .empty n.possibleLengths [(n.national, str% "8"), (n.localOnly, str% "5,6")], .s8,
     .leaf n.exampleNumber (str% "10123456"), .s8,
     .leaf n.nationalNumberPattern (str% "\n          (?:\n            (?:\n              1[0-25]|\n              47\n            )\\d|\n            2(?:\n              2[2-46]|\n              3[1-8]|\n              4[2-69]|\n              5[2-7]|\n              6[1-9]|\n              8[1-7]\n            )|\n            3[12]2\n          )\\d{5}\n        "), .s6], .s6, .comment, .s6,
   .elem n.mobile []
    [.s8,
     .empty n.possibleLengths [(n.national, str% "8")], .s8,
     .leaf n.exampleNumber (str% "77123456"), .s8,
     .leaf n.nationalNumberPattern (str% "\n          (?:\n            33|\n            4[1349]|\n            55|\n            77|\n            88|\n            9[13-9]\n          )\\d{6}\n        "), .s6], .s6,
   .elem n.tollFree []
    [.s8,
     .empty n.possibleLengths [(n.national, str% "8")], .s8,
     .leaf n.exampleNumber (str% "80012345"), .s8,
     .leaf n.nationalNumberPattern (str% "800\\d{5}"), .s6], .s6,
   .elem n.premiumRate []
    [.s8,
     .empty n.possibleLengths [(n.national, str% "8")], .s8,
     .leaf n.exampleNumber (str% "90012345"), .s8,
     .leaf n.nationalNumberPattern (str% "90[016]\\d{5}"), .s6], .s6,
   .elem n.sharedCost []
    [.s8,
     .empty n.possibleLengths [(n.national, str% "8")], .s8,
     .leaf n.exampleNumber (str% "80112345"), .s8,
     .leaf n.nationalNumberPattern (str% "80[1-4]\\d{5}"), .s6], .s6,
   .elem n.voip []
    [.s8,
     .empty n.possibleLengths [(n.national, str% "8")], .s8,
     .leaf n.exampleNumber (str% "60271234"), .s8,
     .leaf n.nationalNumberPattern (str% "\n          60(?:\n            2[78]|\n            3[5-9]|\n            4[02-9]|\n            5[0-46-9]|\n            [6-8]\\d|\n            9[0-2]\n          )\\d{4}\n        "), .s6], .s4]

/-- what stands before this territory -/
noncomputable def AO_before : List Node :=
  [.l4, .comment, .s4, .comment, .s4]
/-- its attributes -/
noncomputable def AO_attrs : List (Str × Str) := [(n.id, str% "AO"), (n.countryCode, str% "244"), (n.internationalPrefix, str% "00")]
/-- its content -/
noncomputable def AO : List Node :=
  [.s6,
   .elem n.availableFormats []
    [.s8,
     .elem n.numberFormat [(n.pattern, str% "(\\d{3})(\\d{3})(\\d{3})")]
      [.s10,
       .leaf n.leadingDigits (str% "[29]"), .s10,
       .leaf n.format (str% "$1 $2 $3"), .s8], .s6], .s6,
   .elem n.generalDesc []
    [.s8,
     .leaf n.nationalNumberPattern (str% "[29]\\d{8}"), .s6], .s6, .comment, .s6,
   .elem n.fixedLine []
    [.s8,
     .empty n.possibleLengths [(n.national, str% "9")], .s8,
     .leaf n.exampleNumber (str% "222123456"), .s8,
     .leaf n.nationalNumberPattern (str% "\n          2\\d(?:\n            [0134][25-9]|\n            [25-9]\\d\n          )\\d{5}\n        "), .s6], .s6, .comment, .s6,
   .elem n.mobile []
    [.s8,
     .empty n.possibleLengths [(n.national, str% "9")], .s8,
     .leaf n.exampleNumber (str% "923123456"), .s8,
     .leaf n.nationalNumberPattern (str% "9[1-79]\\d{7}"), .s6], .s4]

/-- what stands before this territory -/
noncomputable def AR_before : List Node :=
  [.l4, .comment, .s4, .comment, .s4, .comment, .s4, .comment, .s4, .comment, .s4, .comment, .s4]
/-- its attributes -/
noncomputable def AR_attrs : List (Str × Str) := [(n.id, str% "AR"), (n.countryCode, str% "54"), (n.internationalPrefix, str% "00"), (n.nationalPrefix, str% "0"), (n.nationalPrefixForParsing, str% "\n                 0?(?:\n                   (\n                     11|\n                     2(?:\n                       2(?:\n                         02?|\n                         [13]|\n                         2[13-79]|\n                         4[1-6]|\n                         5[2457]|\n                         6[124-8]|\n                         7[1-4]|\n                         8[13-6]|\n                         9[1267]\n                       )|\n                       3(?:\n                         02?|\n                         1[467]|\n                         2[03-6]|\n                         3[13-8]|\n                         [49][2-6]|\n                         5[2-8]|\n                         [67]\n                       )|\n                       4(?:\n                         7[3-578]|\n                         9\n                       )|\n                       6(?:\n                         [0136]|\n                         2[24-6]|\n                         4[6-8]?|\n                         5[15-8]\n                       )|\n                       80|\n                       9(?:\n                         0[1-3]|\n                         [19]|\n                         2\\d|\n                         3[1-6]|\n                         4[02568]?|\n                         5[2-4]|\n                         6[2-46]|\n                         72?|\n                         8[23]?\n                       )\n                     )|\n                     3(?:\n                       3(?:\n                         2[79]|\n                         6|\n                         8[2578]\n                       )|\n                       4(?:\n                         0[0-24-9]|\n                         [12]|\n                         3[5-8]?|\n                         4[24-7]|\n                         5[4-68]?|\n                         6[02-9]|\n                         7[126]|\n                         8[2379]?|\n                         9[1-36-8]\n                       )|\n                       5(?:\n                         1|\n                         2[1245]|\n                         3[237]?|\n                         4[1-46-9]|\n                         6[2-4]|\n                         7[1-6]|\n                         8[2-5]?\n                       )|\n                       6[24]|\n                       7(?:\n                         [069]|\n                         1[1568]|\n                         2[15]|\n                         3[145]|\n                         4[13]|\n                         5[14-8]|\n                         7[2-57]|\n                         8[126]\n                       )|\n                       8(?:\n                         [01]|\n                         2[15-7]|\n                         3[2578]?|\n                         4[13-6]|\n                         5[4-8]?|\n                         6[1-357-9]|\n                         7[36-8]?|\n                         8[5-8]?|\n                         9[124]\n                       )\n                     )\n                   )15\n                 )?"), (n.nationalPrefixTransformRule, str% "9$1"), (n.mobileNumberPortableRegion, str% "true")]
/-- its content -/
noncomputable def AR : List Node :=
  [.s6,
   .elem n.availableFormats []
    [.s8, .comment, .s8,
     .elem n.numberFormat [(n.pattern, str% "(\\d{3})")]
      [.s10,
       .leaf n.leadingDigits (str% "\n            0|\n            1(?:\n              0[0-35-7]|\n              1[02-5]|\n              2[015]|\n              3[47]|\n              4[478]\n            )|\n            911\n          "), .s10,
       .leaf n.format (str% "$1"), .s10,
       .leaf n.intlFormat (str% "NA"), .s8], .s8,
     .elem n.numberFormat [(n.pattern, str% "(\\d{2})(\\d{4})")]
      [.s10,
       .leaf n.leadingDigits (str% "[1-9]"), .s10,
       .leaf n.format (str% "$1-$2"), .s10,
       .leaf n.intlFormat (str% "NA"), .s8], .s8,
     .elem n.numberFormat [(n.pattern, str% "(\\d{3})(\\d{4})")]
      [.s10,
       .leaf n.leadingDigits (str% "[2-9]"), .s10,
       .leaf n.format (str% "$1-$2"), .s10,
       .leaf n.intlFormat (str% "NA"), .s8], .s8,
     .elem n.numberFormat [(n.pattern, str% "(\\d{4})(\\d{4})")]
      [.s10,
       .leaf n.leadingDigits (str% "[1-8]"), .s10,
       .leaf n.format (str% "$1-$2"), .s10,
       .leaf n.intlFormat (str% "NA"), .s8], .s8,
     .elem n.numberFormat [(n.pattern, str% "(\\d{4})(\\d{2})(\\d{4})"), (n.nationalPrefixFormattingRule, str% "$NP$FG"), (n.nationalPrefixOptionalWhenFormatting, str% "true")]
      [.s10,
       .leaf n.leadingDigits (str% "\n            2(?:\n              2[024-9]|\n              3[0-59]|\n              47|\n              6[245]|\n              9[02-8]\n            )|\n            3(?:\n              3[28]|\n              4[03-9]|\n              5[2-46-8]|\n              7[1-578]|\n              8[2-9]\n            )\n          "), .s10,
       .leaf n.leadingDigits (str% "\n            2(?:\n              [23]02|\n              6(?:\n                [25]|\n                4[6-8]\n              )|\n              9(?:\n                [02356]|\n                4[02568]|\n                72|\n                8[23]\n              )\n            )|\n            3(?:\n              3[28]|\n              4(?:\n                [04679]|\n                3[5-8]|\n                5[4-68]|\n                8[2379]\n              )|\n              5(?:\n                [2467]|\n                3[237]|\n                8[2-5]\n              )|\n              7[1-578]|\n              8(?:\n                [2469]|\n                3[2578]|\n                5[4-8]|\n                7[36-8]|\n                8[5-8]\n              )\n            )|\n            2(?:\n              2[24-9]|\n              3[1-59]|\n              47\n            )\n          "), .s10,
       .leaf n.leadingDigits (str% "\n            2(?:\n              [23]02|\n              6(?:\n                [25]|\n                4(?:\n                  64|\n                  [78]\n                )\n              )|\n              9(?:\n                [02356]|\n                4(?:\n                  [0268]|\n                  5[2-6]\n                )|\n                72|\n                8[23]\n              )\n            )|\n            3(?:\n              3[28]|\n              4(?:\n                [04679]|\n                3[78]|\n                5(?:\n                  4[46]|\n                  8\n                )|\n                8[2379]\n              )|\n              5(?:\n                [2467]|\n                3[237]|\n                8[23]\n              )|\n              7[1-578]|\n              8(?:\n                [2469]|\n                3[278]|\n                5[56][46]|\n                86[3-6]\n              )\n            )|\n            2(?:\n              2[24-9]|\n              3[1-59]|\n              47\n            )|\n            38(?:\n              [58][78]|\n              7[378]\n            )|\n            3(?:\n              4[35][56]|\n              58[45]|\n              8(?:\n                [38]5|\n                54|\n                76\n              )\n            )[4-6]\n          "), .s10,
       .leaf n.leadingDigits (str% "\n            2(?:\n              [23]02|\n              6(?:\n                [25]|\n                4(?:\n                  64|\n                  [78]\n                )\n              )|\n              9(?:\n                [02356]|\n                4(?:\n                  [0268]|\n                  5[2-6]\n                )|\n                72|\n                8[23]\n              )\n            )|\n            3(?:\n              3[28]|\n              4(?:\n                [04679]|\n                3(?:\n                  5(?:\n                    4[0-25689]|\n                    [56]\n                  )|\n                  [78]\n                )|\n                58|\n                8[2379]\n              )|\n              5(?:\n                [2467]|\n                3[237]|\n                8(?:\n                  [23]|\n                  4(?:\n                    [45]|\n                    60\n                  )|\n                  5(?:\n                    4[0-39]|\n                    5|\n                    64\n                  )\n                )\n              )|\n              7[1-578]|\n              8(?:\n                [2469]|\n                3[278]|\n                54(?:\n                  4|\n                  5[13-7]|\n                  6[89]\n                )|\n                86[3-6]\n              )\n            )|\n            2(?:\n              2[24-9]|\n              3[1-59]|\n              47\n            )|\n            38(?:\n              [58][78]|\n              7[378]\n            )|\n            3(?:\n              454|\n              85[56]\n            )[46]|\n            3(?:\n              4(?:\n                36|\n                5[56]\n              )|\n              8(?:\n                [38]5|\n                76\n              )\n            )[4-6]\n          "), .s10,
       .leaf n.format (str% "$1 $2-$3"), .s8], .s8, .comment, .s8,
     .elem n.numberFormat [(n.pattern, str% "(\\d{2})(\\d{4})(\\d{4})"), (n.nationalPrefixFormattingRule, str% "$NP$FG"), (n.nationalPrefixOptionalWhenFormatting, str% "true")]
      [.s10,
       .leaf n.leadingDigits (str% "1"), .s10,
       .leaf n.format (str% "$1 $2-$3"), .s8], .s8, .comment, .s8,
     .elem n.numberFormat [(n.pattern, str% "(\\d{3})(\\d{3})(\\d{4})"), (n.nationalPrefixFormattingRule, str% "$NP$FG")]
      [.s10,
       .leaf n.leadingDigits (str% "[68]"), .s10,
       .leaf n.format (str% "$1-$2-$3"), .s8], .s8,
     .elem n.numberFormat [(n.pattern, str% "(\\d{3})(\\d{3})(\\d{4})"), (n.nationalPrefixFormattingRule, str% "$NP$FG"), (n.nationalPrefixOptionalWhenFormatting, str% "true")]
      [.s10,
       .leaf n.leadingDigits (str% "[23]"), .s10,
       .leaf n.format (str% "$1 $2-$3"), .s8], .s8,
     .elem n.numberFormat [(n.pattern, str% "(\\d)(\\d{4})(\\d{2})(\\d{4})"), (n.nationalPrefixFormattingRule, str% "$NP$FG")]
      [.s10,
       .leaf n.leadingDigits (str% "\n            9(?:\n              2[2-469]|\n              3[3-578]\n            )\n          "), .s10,
       .leaf n.leadingDigits (str% "\n            9(?:\n              2(?:\n                2[024-9]|\n                3[0-59]|\n                47|\n                6[245]|\n                9[02-8]\n              )|\n              3(?:\n                3[28]|\n                4[03-9]|\n                5[2-46-8]|\n                7[1-578]|\n                8[2-9]\n              )\n            )\n          "), .s10,
       .leaf n.leadingDigits (str% "\n            9(?:\n              2(?:\n                [23]02|\n                6(?:\n                  [25]|\n                  4[6-8]\n                )|\n                9(?:\n                  [02356]|\n                  4[02568]|\n                  72|\n                  8[23]\n                )\n              )|\n              3(?:\n                3[28]|\n                4(?:\n                  [04679]|\n                  3[5-8]|\n                  5[4-68]|\n                  8[2379]\n                )|\n                5(?:\n                  [2467]|\n                  3[237]|\n                  8[2-5]\n                )|\n                7[1-578]|\n                8(?:\n                  [2469]|\n                  3[2578]|\n                  5[4-8]|\n                  7[36-8]|\n                  8[5-8]\n                )\n              )\n            )|\n            92(?:\n              2[24-9]|\n              3[1-59]|\n              47\n            )\n          "), .s10,
       .leaf n.leadingDigits (str% "\n            9(?:\n              2(?:\n                [23]02|\n                6(?:\n                  [25]|\n                  4(?:\n                    64|\n                    [78]\n                  )\n                )|\n                9(?:\n                  [02356]|\n                  4(?:\n                    [0268]|\n                    5[2-6]\n                  )|\n                  72|\n                  8[23]\n                )\n              )|\n              3(?:\n                3[28]|\n                4(?:\n                  [04679]|\n                  3[78]|\n                  5(?:\n                    4[46]|\n                    8\n                  )|\n                  8[2379]\n                )|\n                5(?:\n                  [2467]|\n                  3[237]|\n                  8[23]\n                )|\n                7[1-578]|\n                8(?:\n                  [2469]|\n                  3[278]|\n                  5(?:\n                    [56][46]|\n                    [78]\n                  )|\n                  7[378]|\n                  8(?:\n                    6[3-6]|\n                    [78]\n                  )\n                )\n              )\n            )|\n            92(?:\n              2[24-9]|\n              3[1-59]|\n              47\n            )|\n            93(?:\n              4[35][56]|\n              58[45]|\n              8(?:\n                [38]5|\n                54|\n                76\n              )\n            )[4-6]\n          "), .s10,
       .leaf n.leadingDigits (str% "\n            9(?:\n              2(?:\n                [23]02|\n                6(?:\n                  [25]|\n                  4(?:\n                    64|\n                    [78]\n                  )\n                )|\n                9(?:\n                  [02356]|\n                  4(?:\n                    [0268]|\n                    5[2-6]\n                  )|\n                  72|\n                  8[23]\n                )\n              )|\n              3(?:\n                3[28]|\n                4(?:\n                  [04679]|\n                  3(?:\n                    5(?:\n                      4[0-25689]|\n                      [56]\n                    )|\n                    [78]\n                  )|\n                  5(?:\n                    4[46]|\n                    8\n                  )|\n                  8[2379]\n                )|\n                5(?:\n                  [2467]|\n                  3[237]|\n                  8(?:\n                    [23]|\n                    4(?:\n                      [45]|\n                      60\n                    )|\n                    5(?:\n                      4[0-39]|\n                      5|\n                      64\n                    )\n                  )\n                )|\n                7[1-578]|\n                8(?:\n                  [2469]|\n                  3[278]|\n                  5(?:\n                    4(?:\n                      4|\n                      5[13-7]|\n                      6[89]\n                    )|\n                    [56][46]|\n                    [78]\n                  )|\n                  7[378]|\n                  8(?:\n                    6[3-6]|\n                    [78]\n                  )\n                )\n              )\n            )|\n            92(?:\n              2[24-9]|\n              3[1-59]|\n              47\n            )|\n            93(?:\n              4(?:\n                36|\n                5[56]\n              )|\n              8(?:\n                [38]5|\n                76\n              )\n            )[4-6]\n          "), .s10,
       .leaf n.format (str% "$2 15-$3-$4"), .s10,
       .leaf n.intlFormat (str% "$1 $2 $3-$4"), .s8], .s8,
     .elem n.numberFormat [(n.pattern, str% "(\\d)(\\d{2})(\\d{4})(\\d{4})"), (n.nationalPrefixFormattingRule, str% "$NP$FG")]
      [.s10,
       .leaf n.leadingDigits (str% "91"), .s10,
       .leaf n.format (str% "$2 15-$3-$4"), .s10,
       .leaf n.intlFormat (str% "$1 $2 $3-$4"), .s8], .s8,
     .elem n.numberFormat [(n.pattern, str% "(\\d{3})(\\d{3})(\\d{5})"), (n.nationalPrefixFormattingRule, str% "$NP$FG")]
      [.s10,
       .leaf n.leadingDigits (str% "8"), .s10,
       .leaf n.format (str% "$1-$2-$3"), .s8], .s8,
     .elem n.numberFormat [(n.pattern, str% "(\\d)(\\d{3})(\\d{3})(\\d{4})"), (n.nationalPrefixFormattingRule, str% "$NP$FG")]
      [.s10,
       .leaf n.leadingDigits (str% "9"), .s10,
       .leaf n.format (str% "$2 15-$3-$4"), .s10,
       .leaf n.intlFormat (str% "$1 $2 $3-$4"), .s8], .s6], .s6,
   .elem n.generalDesc []
    [.s8,
     .leaf n.nationalNumberPattern (str% "\n          (?:\n            11|\n            [89]\\d\\d\n          )\\d{8}|\n          [2368]\\d{9}\n        "), .s6], .s6,
   .elem n.noInternationalDialling []
    [.s8,
     .empty n.possibleLengths [(n.national, str% "10")], .s8,
     .leaf n.nationalNumberPattern (str% "810\\d{7}"), .s6], .s6, .comment, .s6,
   .elem n.fixedLine []
    [.s8,
     .empty n.possibleLengths [(n.national, str% "10"), (n.localOnly, str% "[6-8]")], .s8,
     .leaf n.exampleNumber (str% "1123456789"), .s8,
     .leaf n.nationalNumberPattern (str% "\n          3(?:\n            7(?:\n              1[15]|\n              81\n            )|\n            8(?:\n              21|\n              4[16]|\n              69|\n              9[12]\n            )\n          )[46]\\d{5}|\n          (?:\n            2(?:\n              2(?:\n                2[59]|\n                44|\n                52\n              )|\n              3(?:\n                26|\n                44\n              )|\n              47[35]|\n              9(?:\n                [07]2|\n                2[26]|\n                34|\n                46\n              )\n            )|\n            3327\n          )[45]\\d{5}|\n          (?:\n            2(?:\n              657|\n              9(?:\n                54|\n                66\n              )\n            )|\n            3(?:\n              48[27]|\n              7(?:\n                55|\n                77\n              )|\n              8(?:\n                65|\n                78\n              )\n            )\n          )[2-8]\\d{5}|\n          (?:\n            2(?:\n              284|\n              3(?:\n                02|\n                23\n              )|\n              477|\n              622|\n              920\n            )|\n            3(?:\n              4(?:\n                46|\n                89|\n                92\n              )|\n              541\n            )\n          )[2-7]\\d{5}|\n          (?:\n            (?:\n              11[1-8]|\n              670\n            )\\d|\n            2(?:\n              2(?:\n                0[45]|\n                1[2-6]|\n                3[3-6]\n              )|\n              3(?:\n                [06]4|\n                7[45]\n              )|\n              494|\n              6(?:\n                04|\n                1[2-8]|\n                [36][45]|\n                4[3-6]\n              )|\n              80[45]|\n              9(?:\n                [17][4-6]|\n                [48][45]|\n                9[3-6]\n              )\n            )|\n            3(?:\n              364|\n              4(?:\n                1[2-8]|\n                [25][4-6]|\n                3[3-6]|\n                84\n              )|\n              5(?:\n                1[2-9]|\n                [38][4-6]\n              )|\n              6(?:\n                2[45]|\n                44\n              )|\n              7[069][45]|\n              8(?:\n                0[45]|\n                1[2-7]|\n                3[4-6]|\n                5[3-6]|\n                7[2-6]|\n                8[3-68]\n              )\n            )\n          )\\d{6}|\n          (?:\n            2(?:\n              2(?:\n                62|\n                81\n              )|\n              320|\n              9(?:\n                42|\n                83\n              )\n            )|\n            3(?:\n              329|\n              4(?:\n                62|\n                7[16]\n              )|\n              5(?:\n                43|\n                64\n              )|\n              7(?:\n                18|\n                5[17]\n              )\n            )\n          )[2-6]\\d{5}|\n          2(?:\n            2(?:\n              21|\n              4[23]|\n              6[145]|\n              7[1-4]|\n              8[356]|\n              9[267]\n            )|\n            3(?:\n              16|\n              3[13-8]|\n              43|\n              5[346-8]|\n              9[3-5]\n            )|\n            6(?:\n              2[46]|\n              4[78]|\n              5[1568]\n            )|\n            9(?:\n              03|\n              2[1457-9]|\n              3[1356]|\n              4[08]|\n              [56][23]|\n              82\n            )\n          )4\\d{5}|\n          (?:\n            2(?:\n              257|\n              3(?:\n                24|\n                46|\n                92\n              )|\n              9(?:\n                01|\n                23|\n                64\n              )\n            )|\n            3(?:\n              4(?:\n                42|\n                64\n              )|\n              5(?:\n                25|\n                37|\n                4[47]|\n                71\n              )|\n              7(?:\n                35|\n                72\n              )|\n              825\n            )\n          )[3-6]\\d{5}|\n          (?:\n            2(?:\n              2(?:\n                02|\n                2[3467]|\n                4[156]|\n                5[45]|\n                6[6-8]|\n                91\n              )|\n              3(?:\n                1[47]|\n                25|\n                [45][25]|\n                96\n              )|\n              47[48]|\n              625|\n              932\n            )|\n            3(?:\n              38[2578]|\n              4(?:\n                0[0-24-9]|\n                3[78]|\n                4[457]|\n                58|\n                6[035-9]|\n                72|\n                83|\n                9[136-8]\n              )|\n              5(?:\n                2[124]|\n                [368][23]|\n                4[2689]|\n                7[2-6]\n              )|\n              7(?:\n                16|\n                2[15]|\n                3[14]|\n                4[13]|\n                5[468]|\n                7[3-5]|\n                8[26]\n              )|\n              8(?:\n                2[67]|\n                3[278]|\n                4[3-5]|\n                5[78]|\n                6[1-378]|\n                [78]7|\n                94\n              )\n            )\n          )[4-6]\\d{5}\n        "), .s6], .s6, .comment, .s6,
   .elem n.mobile []
    [.s8,
     .empty n.possibleLengths [(n.national, str% "10,11"), (n.localOnly, str% "[6-8]")], .s8,
     .leaf n.exampleNumber (str% "91123456789"), .s8,
     .leaf n.nationalNumberPattern (str% "\n          93(?:\n            7(?:\n              1[15]|\n              81\n            )|\n            8(?:\n              21|\n              4[16]|\n              69|\n              9[12]\n            )\n          )[46]\\d{5}|\n          9(?:\n            2(?:\n              2(?:\n                2[59]|\n                44|\n                52\n              )|\n              3(?:\n                26|\n                44\n              )|\n              47[35]|\n              9(?:\n                [07]2|\n                2[26]|\n                34|\n                46\n              )\n            )|\n            3327\n          )[45]\\d{5}|\n          9(?:\n            2(?:\n              657|\n              9(?:\n                54|\n                66\n              )\n            )|\n            3(?:\n              48[27]|\n              7(?:\n                55|\n                77\n              )|\n              8(?:\n                65|\n                78\n              )\n            )\n          )[2-8]\\d{5}|\n          9(?:\n            2(?:\n              284|\n              3(?:\n                02|\n                23\n              )|\n              477|\n              622|\n              920\n            )|\n            3(?:\n              4(?:\n                46|\n                89|\n                92\n              )|\n              541\n            )\n          )[2-7]\\d{5}|\n          (?:\n            675\\d|\n            9(?:\n              11[1-8]\\d|\n              2(?:\n                2(?:\n                  0[45]|\n                  1[2-6]|\n                  3[3-6]\n                )|\n                3(?:\n                  [06]4|\n                  7[45]\n                )|\n                494|\n                6(?:\n                  04|\n                  1[2-8]|\n                  [36][45]|\n                  4[3-6]\n                )|\n                80[45]|\n                9(?:\n                  [17][4-6]|\n                  [48][45]|\n                  9[3-6]\n                )\n              )|\n              3(?:\n                364|\n                4(?:\n                  1[2-8]|\n                  [25][4-6]|\n                  3[3-6]|\n                  84\n                )|\n                5(?:\n                  1[2-9]|\n                  [38][4-6]\n                )|\n                6(?:\n                  2[45]|\n                  44\n                )|\n                7[069][45]|\n                8(?:\n                  0[45]|\n                  1[2-7]|\n                  3[4-6]|\n                  5[3-6]|\n                  7[2-6]|\n                  8[3-68]\n                )\n              )\n            )\n          )\\d{6}|\n          9(?:\n            2(?:\n              2(?:\n                62|\n                81\n              )|\n              320|\n              9(?:\n                42|\n                83\n              )\n            )|\n            3(?:\n              329|\n              4(?:\n                62|\n                7[16]\n              )|\n              5(?:\n                43|\n                64\n              )|\n              7(?:\n                18|\n                5[17]\n              )\n            )\n          )[2-6]\\d{5}|\n          92(?:\n            2(?:\n              21|\n              4[23]|\n              6[145]|\n              7[1-4]|\n              8[356]|\n              9[267]\n            )|\n            3(?:\n              16|\n              3[13-8]|\n              43|\n              5[346-8]|\n              9[3-5]\n            )|\n            6(?:\n              2[46]|\n              4[78]|\n              5[1568]\n            )|\n            9(?:\n              03|\n              2[1457-9]|\n              3[1356]|\n              4[08]|\n              [56][23]|\n              82\n            )\n          )4\\d{5}|\n          9(?:\n            2(?:\n              257|\n              3(?:\n                24|\n                46|\n                92\n              )|\n              9(?:\n                01|\n                23|\n                64\n              )\n            )|\n            3(?:\n              4(?:\n                42|\n                64\n              )|\n              5(?:\n                25|\n                37|\n                4[47]|\n                71\n              )|\n              7(?:\n                35|\n                72\n              )|\n              825\n            )\n          )[3-6]\\d{5}|\n          9(?:\n            2(?:\n              2(?:\n                02|\n                2[3467]|\n                4[156]|\n                5[45]|\n                6[6-8]|\n                91\n              )|\n              3(?:\n                1[47]|\n                25|\n                [45][25]|\n                96\n              )|\n              47[48]|\n              625|\n              932\n            )|\n            3(?:\n              38[2578]|\n              4(?:\n                0[0-24-9]|\n                3[78]|\n                4[457]|\n                58|\n                6[035-9]|\n                72|\n                83|\n                9[136-8]\n              )|\n              5(?:\n                2[124]|\n                [368][23]|\n                4[2689]|\n                7[2-6]\n              )|\n              7(?:\n                16|\n                2[15]|\n                3[14]|\n                4[13]|\n                5[468]|\n                7[3-5]|\n                8[26]\n              )|\n              8(?:\n                2[67]|\n                3[278]|\n                4[3-5]|\n                5[78]|\n                6[1-378]|\n                [78]7|\n                94\n              )\n            )\n          )[4-6]\\d{5}\n        "), .s6], .s6,
   .elem n.tollFree []
    [.s8,
     .empty n.possibleLengths [(n.national, str% "10,11")], .s8,
     .leaf n.exampleNumber (str% "8001234567"), .s8,
     .leaf n.nationalNumberPattern (str% "800\\d{7,8}"), .s6], .s6,
   .elem n.premiumRate []
    [.s8,
     .empty n.possibleLengths [(n.national, str% "10")], .s8,
     .leaf n.exampleNumber (str% "6001234567"), .s8,
     .leaf n.nationalNumberPattern (str% "60[04579]\\d{7}"), .s6], .s6,
   .elem n.uan []
    [.s8,
     .empty n.possibleLengths [(n.national, str% "10")], .s8,
     .leaf n.exampleNumber (str% "8101234567"), .s8,
     .leaf n.nationalNumberPattern (str% "810\\d{7}"), .s6], .s4]

/-- the nodes of this module -/
noncomputable def chunk00 : List (List Node × List (Str × Str) × List Node) :=
  [(AC_before, AC_attrs, AC), (AD_before, AD_attrs, AD), (AE_before, AE_attrs, AE), (AF_before, AF_attrs, AF),
   (AG_before, AG_attrs, AG), (AI_before, AI_attrs, AI), (AL_before, AL_attrs, AL), (AM_before, AM_attrs, AM),
   (AO_before, AO_attrs, AO), (AR_before, AR_attrs, AR)]

end Phone.Data.X
