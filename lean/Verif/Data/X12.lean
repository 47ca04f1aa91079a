import Verif.Data.XNames
/-! Territories of `/repo/assets/PhoneNumberMetadata.xml` as trees. Generated by `tools/gen_xml.py`; do not edit. -/

set_option maxRecDepth 100000
namespace Phone.Data.X
open Phone.Xml

/-- what stands before this territory -/
noncomputable def PK_before : List Node :=
  [.l4, .comment, .s4, .comment, .s4, .comment, .s4]
/-- its attributes -/
noncomputable def PK_attrs : List (Str × Str) := [(n.id, str% "PK"), (n.countryCode, str% "92"), (n.internationalPrefix, str% "00"), (n.nationalPrefix, str% "0"), (n.mobileNumberPortableRegion, str% "true")]
/-- its content -/
noncomputable def PK : List Node :=
  [.s6,
   .elem n.availableFormats []
    [.s8, .comment, .s8,
     .elem n.numberFormat [(n.pattern, str% "(\\d{3})(\\d{3})(\\d{2,7})"), (n.nationalPrefixFormattingRule, str% "$NP$FG")]
      [.s10,
       .leaf n.leadingDigits (str% "[89]0"), .s10,
       .leaf n.format (str% "$1 $2 $3"), .s8], .s8, .comment, .s8,
     .elem n.numberFormat [(n.pattern, str% "(\\d{4})(\\d{5})")]
      [.s10,
       .leaf n.leadingDigits (str% "1"), .s10,
       .leaf n.format (str% "$1 $2"), .s8], .s8, .comment, .s8,
     .elem n.numberFormat [(n.pattern, str% "(\\d{3})(\\d{6,7})"), (n.nationalPrefixFormattingRule, str% "($NP$FG)")]
      [.s10,
       .leaf n.leadingDigits (str% "\n            2(?:\n              3[2358]|\n              4[2-4]|\n              9[2-8]\n            )|\n            45[3479]|\n            54[2-467]|\n            60[468]|\n            72[236]|\n            8(?:\n              2[2-689]|\n              3[23578]|\n              4[3478]|\n              5[2356]\n            )|\n            9(?:\n              2[2-8]|\n              3[27-9]|\n              4[2-6]|\n              6[3569]|\n              9[25-8]\n            )\n          "), .s10,
       .leaf n.leadingDigits (str% "\n            9(?:\n              2[3-8]|\n              98\n            )|\n            (?:\n              2(?:\n                3[2358]|\n                4[2-4]|\n                9[2-8]\n              )|\n              45[3479]|\n              54[2-467]|\n              60[468]|\n              72[236]|\n              8(?:\n                2[2-689]|\n                3[23578]|\n                4[3478]|\n                5[2356]\n              )|\n              9(?:\n                22|\n                3[27-9]|\n                4[2-6]|\n                6[3569]|\n                9[25-7]\n              )\n            )[2-9]\n          "), .s10,
       .leaf n.format (str% "$1 $2"), .s8], .s8, .comment, .s8,
     .elem n.numberFormat [(n.pattern, str% "(\\d{2})(\\d{7,8})"), (n.nationalPrefixFormattingRule, str% "($NP$FG)")]
      [.s10,
       .leaf n.leadingDigits (str% "\n            (?:\n              2[125]|\n              4[0-246-9]|\n              5[1-35-7]|\n              6[1-8]|\n              7[14]|\n              8[16]|\n              91\n            )[2-9]\n          "), .s10,
       .leaf n.format (str% "$1 $2"), .s8], .s8, .comment, .s8,
     .elem n.numberFormat [(n.pattern, str% "(\\d{5})(\\d{5})"), (n.nationalPrefixFormattingRule, str% "($NP$FG)")]
      [.s10,
       .leaf n.leadingDigits (str% "58"), .s10,
       .leaf n.format (str% "$1 $2"), .s8], .s8, .comment, .s8,
     .elem n.numberFormat [(n.pattern, str% "(\\d{3})(\\d{7})"), (n.nationalPrefixFormattingRule, str% "$NP$FG")]
      [.s10,
       .leaf n.leadingDigits (str% "3"), .s10,
       .leaf n.format (str% "$1 $2"), .s8], .s8, .comment, .s8,
     .elem n.numberFormat [(n.pattern, str% "(\\d{2})(\\d{3})(\\d{3})(\\d{3})"), (n.nationalPrefixFormattingRule, str% "($NP$FG)")]
      [.s10,
       .leaf n.leadingDigits (str% "\n            2[125]|\n            4[0-246-9]|\n            5[1-35-7]|\n            6[1-8]|\n            7[14]|\n            8[16]|\n            91\n          "), .s10,
       .leaf n.format (str% "$1 $2 $3 $4"), .s8], .s8, .comment, .s8,
     .elem n.numberFormat [(n.pattern, str% "(\\d{3})(\\d{3})(\\d{3})(\\d{3})"), (n.nationalPrefixFormattingRule, str% "($NP$FG)")]
      [.s10,
       .leaf n.leadingDigits (str% "[24-9]"), .s10,
       .leaf n.format (str% "$1 $2 $3 $4"), .s8], .s6], .s6,
   .elem n.generalDesc []
    [.s8,
     .leaf n.nationalNumberPattern (str% "\n          122\\d{6}|\n          [24-8]\\d{10,11}|\n          9(?:\n            [013-9]\\d{8,10}|\n            2(?:\n              [01]\\d\\d|\n              2(?:\n                [06-8]\\d|\n                1[01]\n              )\n            )\\d{7}\n          )|\n          (?:\n            [2-8]\\d{3}|\n            92(?:\n              [0-7]\\d|\n              8[1-9]\n            )\n          )\\d{6}|\n          [24-9]\\d{8}|\n          [89]\\d{7}\n        "), .s6], .s6, .comment, .s6,
   .elem n.fixedLine []
    [.s8,
     .empty n.possibleLengths [(n.national, str% "9,10"), (n.localOnly, str% "[5-8]")], .s8,
     .leaf n.exampleNumber (str% "2123456789"), .s8,
     .leaf n.nationalNumberPattern (str% "\n          (?:\n            (?:\n              21|\n              42\n            )[2-9]|\n            58[126]\n          )\\d{7}|\n          (?:\n            2[25]|\n            4[0146-9]|\n            5[1-35-7]|\n            6[1-8]|\n            7[14]|\n            8[16]|\n            91\n          )[2-9]\\d{6,7}|\n          (?:\n            2(?:\n              3[2358]|\n              4[2-4]|\n              9[2-8]\n            )|\n            45[3479]|\n            54[2-467]|\n            60[468]|\n            72[236]|\n            8(?:\n              2[2-689]|\n              3[23578]|\n              4[3478]|\n              5[2356]\n            )|\n            9(?:\n              2[2-8]|\n              3[27-9]|\n              4[2-6]|\n              6[3569]|\n              9[25-8]\n            )\n          )[2-9]\\d{5,6}\n        "), .s6], .s6, .comment, .s6,
   .elem n.mobile []
    [.s8,
     .empty n.possibleLengths [(n.national, str% "10")], .s8,
     .leaf n.exampleNumber (str% "3012345678"), .s8,
     .leaf n.nationalNumberPattern (str% "\n          3(?:\n            [0-247]\\d|\n            3[0-79]|\n            55|\n            64\n          )\\d{7}\n        "), .s6], .s6, .comment, .s6,
   .elem n.tollFree []
    [.s8,
     .empty n.possibleLengths [(n.national, str% "8,11")], .s8,
     .leaf n.exampleNumber (str% "80012345"), .s8,
     .leaf n.nationalNumberPattern (str% "\n          800\\d{5}(?:\n            \\d{3}\n          )?\n        "), .s6], .s6,
   .elem n.premiumRate []
    [.s8,
     .empty n.possibleLengths [(n.national, str% "8")], .s8,
     .leaf n.exampleNumber (str% "90012345"), .s8,
     .leaf n.nationalNumberPattern (str% "900\\d{5}"), .s6], .s6, .comment, .s6, .comment, .s6,
   .elem n.personalNumber []
    [.s8,
     .empty n.possibleLengths [(n.national, str% "9")], .s8,
     .leaf n.exampleNumber (str% "122044444"), .s8,
     .leaf n.nationalNumberPattern (str% "122\\d{6}"), .s6], .s6, .comment, .s6,
   .elem n.uan []
    [.s8,
     .empty n.possibleLengths [(n.national, str% "11,12")], .s8,
     .leaf n.exampleNumber (str% "21111825888"), .s8,
     .leaf n.nationalNumberPattern (str% "\n          (?:\n            2(?:\n              [125]|\n              3[2358]|\n              4[2-4]|\n              9[2-8]\n            )|\n            4(?:\n              [0-246-9]|\n              5[3479]\n            )|\n            5(?:\n              [1-35-7]|\n              4[2-467]\n            )|\n            6(?:\n              0[468]|\n              [1-8]\n            )|\n            7(?:\n              [14]|\n              2[236]\n            )|\n            8(?:\n              [16]|\n              2[2-689]|\n              3[23578]|\n              4[3478]|\n              5[2356]\n            )|\n            9(?:\n              1|\n              22|\n              3[27-9]|\n              4[2-6]|\n              6[3569]|\n              9[2-7]\n            )\n          )111\\d{6}\n        "), .s6], .s4]

/-- what stands before this territory -/
noncomputable def PL_before : List Node :=
  [.l4, .comment, .s4, .comment, .s4, .comment, .s4, .comment, .s4, .comment, .s4, .comment, .s4]
/-- its attributes -/
noncomputable def PL_attrs : List (Str × Str) := [(n.id, str% "PL"), (n.countryCode, str% "48"), (n.internationalPrefix, str% "00"), (n.mobileNumberPortableRegion, str% "true")]
/-- its content -/
noncomputable def PL : List Node :=
  [.s6,
   .elem n.availableFormats []
    [.s8, .comment, .s8,
     .elem n.numberFormat [(n.pattern, str% "(\\d{5})")]
      [.s10,
       .leaf n.leadingDigits (str% "19"), .s10,
       .leaf n.format (str% "$1"), .s8], .s8, .comment, .s8,
     .elem n.numberFormat [(n.pattern, str% "(\\d{3})(\\d{3})")]
      [.s10,
       .leaf n.leadingDigits (str% "\n            11|\n            20|\n            64\n          "), .s10,
       .leaf n.format (str% "$1 $2"), .s8], .s8, .comment, .s8,
     .elem n.numberFormat [(n.pattern, str% "(\\d{2})(\\d{2})(\\d{3})")]
      [.s10,
       .leaf n.leadingDigits (str% "\n            30|\n            (?:\n              1[2-8]|\n              2[2-69]|\n              3[2-4]|\n              4[1-468]|\n              5[24-689]|\n              6[1-3578]|\n              7[14-7]|\n              8[1-79]|\n              9[145]\n            )1\n          "), .s10,
       .leaf n.leadingDigits (str% "\n            30|\n            (?:\n              1[2-8]|\n              2[2-69]|\n              3[2-4]|\n              4[1-468]|\n              5[24-689]|\n              6[1-3578]|\n              7[14-7]|\n              8[1-79]|\n              9[145]\n            )19\n          "), .s10,
       .leaf n.format (str% "$1 $2 $3"), .s8], .s8, .comment, .s8,
     .elem n.numberFormat [(n.pattern, str% "(\\d{3})(\\d{2})(\\d{2,3})")]
      [.s10,
       .leaf n.leadingDigits (str% "64"), .s10,
       .leaf n.format (str% "$1 $2 $3"), .s8], .s8, .comment, .s8,
     .elem n.numberFormat [(n.pattern, str% "(\\d{3})(\\d{3})(\\d{3})")]
      [.s10,
       .leaf n.leadingDigits (str% "\n            21|\n            39|\n            45|\n            5[0137]|\n            6[0469]|\n            7[02389]|\n            8(?:\n              0[14]|\n              8\n            )\n          "), .s10,
       .leaf n.format (str% "$1 $2 $3"), .s8], .s8, .comment, .s8,
     .elem n.numberFormat [(n.pattern, str% "(\\d{2})(\\d{3})(\\d{2})(\\d{2})")]
      [.s10,
       .leaf n.leadingDigits (str% "\n            1[2-8]|\n            [2-7]|\n            8[1-79]|\n            9[145]\n          "), .s10,
       .leaf n.format (str% "$1 $2 $3 $4"), .s8], .s8, .comment, .s8,
     .elem n.numberFormat [(n.pattern, str% "(\\d{3})(\\d{3})(\\d{3,4})")]
      [.s10,
       .leaf n.leadingDigits (str% "8"), .s10,
       .leaf n.format (str% "$1 $2 $3"), .s8], .s6], .s6,
   .elem n.generalDesc []
    [.s8,
     .leaf n.nationalNumberPattern (str% "\n          (?:\n            6|\n            8\\d\\d\n          )\\d{7}|\n          [1-9]\\d{6}(?:\n            \\d{2}\n          )?|\n          [26]\\d{5}\n        "), .s6], .s6, .comment, .s6,
   .elem n.fixedLine []
    [.s8,
     .empty n.possibleLengths [(n.national, str% "7,9")], .s8,
     .leaf n.exampleNumber (str% "123456789"), .s8,
     .leaf n.nationalNumberPattern (str% "\n          (?:\n            30|\n            47\\d\\d\n          )\\d{5}|\n          (?:\n            1[2-8]|\n            2[2-69]|\n            3[2-4]|\n            4[1-468]|\n            5[24-689]|\n            6[1-3578]|\n            7[14-7]|\n            8[1-79]|\n            9[145]\n          )(?:\n            [02-9]\\d{6}|\n            1(?:\n              [0-8]\\d{5}|\n              9\\d{3}(?:\n                \\d{2}\n              )?\n            )\n          )\n        "), .s6], .s6,
   .elem n.mobile []
    [.s8,
     .empty n.possibleLengths [(n.national, str% "9")], .s8,
     .leaf n.exampleNumber (str% "512345678"), .s8,
     .leaf n.nationalNumberPattern (str% "\n          21(?:\n            1[013-5]|\n            2\\d|\n            3[1-9]\n          )\\d{5}|\n          (?:\n            45|\n            5[0137]|\n            6[069]|\n            7[2389]|\n            88\n          )\\d{7}\n        "), .s6], .s6,
   .elem n.pager []
    [.s8,
     .empty n.possibleLengths [(n.national, str% "[6-9]")], .s8,
     .leaf n.exampleNumber (str% "641234567"), .s8,
     .leaf n.nationalNumberPattern (str% "64\\d{4,7}"), .s6], .s6, .comment, .s6,
   .elem n.tollFree []
    [.s8,
     .empty n.possibleLengths [(n.national, str% "9,10")], .s8,
     .leaf n.exampleNumber (str% "800123456"), .s8,
     .leaf n.nationalNumberPattern (str% "800\\d{6,7}"), .s6], .s6,
   .elem n.premiumRate []
    [.s8,
     .empty n.possibleLengths [(n.national, str% "9")], .s8,
     .leaf n.exampleNumber (str% "701234567"), .s8,
     .leaf n.nationalNumberPattern (str% "70[01346-8]\\d{6}"), .s6], .s6,
   .elem n.sharedCost []
    [.s8,
     .empty n.possibleLengths [(n.national, str% "9")], .s8,
     .leaf n.exampleNumber (str% "801234567"), .s8,
     .leaf n.nationalNumberPattern (str% "801\\d{6}"), .s6], .s6,
   .elem n.voip []
    [.s8,
     .empty n.possibleLengths [(n.national, str% "9")], .s8,
     .leaf n.exampleNumber (str% "391234567"), .s8,
     .leaf n.nationalNumberPattern (str% "39\\d{7}"), .s6], .s6,
   .elem n.uan []
    [.s8,
     .empty n.possibleLengths [(n.national, str% "9")], .s8,
     .leaf n.exampleNumber (str% "804123456"), .s8,
     .leaf n.nationalNumberPattern (str% "804\\d{6}"), .s6], .s4]

/-- what stands before this territory -/
noncomputable def PM_before : List Node :=
  [.l4, .comment, .s4, .comment, .s4]
/-- its attributes -/
noncomputable def PM_attrs : List (Str × Str) := [(n.id, str% "PM"), (n.countryCode, str% "508"), (n.internationalPrefix, str% "00"), (n.nationalPrefix, str% "0")]
/-- its content -/
noncomputable def PM : List Node :=
  [.s6,
   .elem n.availableFormats []
    [.s8,
     .elem n.numberFormat [(n.pattern, str% "(\\d{2})(\\d{2})(\\d{2})"), (n.nationalPrefixFormattingRule, str% "$NP$FG")]
      [.s10,
       .leaf n.leadingDigits (str% "[2-9]"), .s10,
       .leaf n.format (str% "$1 $2 $3"), .s8], .s8,
     .elem n.numberFormat [(n.pattern, str% "(\\d{3})(\\d{3})(\\d{3})")]
      [.s10,
       .leaf n.leadingDigits (str% "7"), .s10,
       .leaf n.format (str% "$1 $2 $3"), .s8], .s8,
     .elem n.numberFormat [(n.pattern, str% "(\\d{3})(\\d{2})(\\d{2})(\\d{2})"), (n.nationalPrefixFormattingRule, str% "$NP$FG")]
      [.s10,
       .leaf n.leadingDigits (str% "8"), .s10,
       .leaf n.format (str% "$1 $2 $3 $4"), .s8], .s6], .s6,
   .elem n.generalDesc []
    [.s8,
     .leaf n.nationalNumberPattern (str% "\n          [78]\\d{8}|\n          [2-9]\\d{5}\n        "), .s6], .s6, .comment, .s6,
   .elem n.fixedLine []
    [.s8,
     .empty n.possibleLengths [(n.national, str% "6,9")], .s8,
     .leaf n.exampleNumber (str% "430123"), .s8,
     .leaf n.nationalNumberPattern (str% "\n          80[6-9]\\d{6}|\n          (?:\n            [236-9]\\d|\n            4[1-35-9]|\n            5[0-47-9]\n          )\\d{4}\n        "), .s6], .s6, .comment, .s6,
   .elem n.mobile []
    [.s8,
     .empty n.possibleLengths [(n.national, str% "6,9")], .s8,
     .leaf n.exampleNumber (str% "551234"), .s8,
     .leaf n.nationalNumberPattern (str% "\n          708(?:\n            4[0-5]|\n            5[0-6]\n          )\\d{4}|\n          (?:\n            [236-9]\\d|\n            4[02-489]|\n            5[02-9]\n          )\\d{4}\n        "), .s6], .s6, .comment, .s6,
   .elem n.tollFree []
    [.s8,
     .empty n.possibleLengths [(n.national, str% "9")], .s8,
     .leaf n.exampleNumber (str% "800012345"), .s8,
     .leaf n.nationalNumberPattern (str% "80[0-5]\\d{6}"), .s6], .s6,
   .elem n.premiumRate []
    [.s8,
     .empty n.possibleLengths [(n.national, str% "9")], .s8,
     .leaf n.exampleNumber (str% "810123456"), .s8,
     .leaf n.nationalNumberPattern (str% "8[129]\\d{7}"), .s6], .s4]

/-- what stands before this territory -/
noncomputable def PR_before : List Node :=
  [.l4, .comment, .s4, .comment, .s4, .comment, .s4]
/-- its attributes -/
noncomputable def PR_attrs : List (Str × Str) := [(n.id, str% "PR"), (n.countryCode, str% "1"), (n.leadingDigits, str% "787|939"), (n.internationalPrefix, str% "011"), (n.nationalPrefix, str% "1"), (n.mobileNumberPortableRegion, str% "true")]
/-- its content -/
noncomputable def PR : List Node :=
  [.s6,
   .elem n.generalDesc []
    [.s8,
     .leaf n.nationalNumberPattern (str% "\n          (?:\n            [589]\\d\\d|\n            787\n          )\\d{7}\n        "), .s6], .s6,
   .elem n.fixedLine []
    [.s8,
     .empty n.possibleLengths [(n.national, str% "10"), (n.localOnly, str% "7")], .s8,
     .leaf n.exampleNumber (str% "7872345678"), .s8,
     .leaf n.nationalNumberPattern (str% "\n          (?:\n            787|\n            939\n          )[2-9]\\d{6}\n        "), .s6], .s6,
   .elem n.mobile []
    [.s8,
     .empty n.possibleLengths [(n.national, str% "10"), (n.localOnly, str% "7")], .s8,
     .leaf n.exampleNumber (str% "7872345678"), .s8,
     .leaf n.nationalNumberPattern (str% "\n          (?:\n            787|\n            939\n          )[2-9]\\d{6}\n        "), .s6], .s6,
   .elem n.tollFree []
    [.s8,
     .empty n.possibleLengths [(n.national, str% "10")], .s8,
     .leaf n.exampleNumber (str% "8002345678"), .s8,
     .leaf n.nationalNumberPattern (str% "\n          8(?:\n            00|\n            33|\n            44|\n            55|\n            66|\n            77|\n            88\n          )[2-9]\\d{6}\n        "), .s6], .s6,
   .elem n.premiumRate []
    [.s8,
     .empty n.possibleLengths [(n.national, str% "10")], .s8,
     .leaf n.exampleNumber (str% "9002345678"), .s8,
     .leaf n.nationalNumberPattern (str% "900[2-9]\\d{6}"), .s6], .s6, .comment, .s6,
   .elem n.personalNumber []
    [.s8,
     .empty n.possibleLengths [(n.national, str% "10")], .s8,
     .leaf n.exampleNumber (str% "5002345678"), .s8,
     .leaf n.nationalNumberPattern (str% "\n          52(?:\n            3(?:\n              [2-46-9][02-9]\\d|\n              5(?:\n                [02-46-9]\\d|\n                5[0-46-9]\n              )\n            )|\n            4(?:\n              [2-478][02-9]\\d|\n              5(?:\n                [034]\\d|\n                2[024-9]|\n                5[0-46-9]\n              )|\n              6(?:\n                0[1-9]|\n                [2-9]\\d\n              )|\n              9(?:\n                [05-9]\\d|\n                2[0-5]|\n                49\n              )\n            )\n          )\\d{4}|\n          52[34][2-9]1[02-9]\\d{4}|\n          5(?:\n            00|\n            2[125-9]|\n            3[23]|\n            44|\n            66|\n            77|\n            88\n          )[2-9]\\d{6}\n        "), .s6], .s4]

/-- what stands before this territory -/
noncomputable def PS_before : List Node :=
  [.l4, .comment, .s4, .comment, .s4, .comment, .s4, .comment, .s4, .comment, .s4]
/-- its attributes -/
noncomputable def PS_attrs : List (Str × Str) := [(n.id, str% "PS"), (n.countryCode, str% "970"), (n.internationalPrefix, str% "00"), (n.nationalPrefix, str% "0")]
/-- its content -/
noncomputable def PS : List Node :=
  [.s6,
   .elem n.availableFormats []
    [.s8,
     .elem n.numberFormat [(n.pattern, str% "(\\d)(\\d{3})(\\d{4})"), (n.nationalPrefixFormattingRule, str% "$NP$FG")]
      [.s10,
       .leaf n.leadingDigits (str% "[2489]"), .s10,
       .leaf n.format (str% "$1 $2 $3"), .s8], .s8,
     .elem n.numberFormat [(n.pattern, str% "(\\d{3})(\\d{3})(\\d{3})"), (n.nationalPrefixFormattingRule, str% "$NP$FG")]
      [.s10,
       .leaf n.leadingDigits (str% "5"), .s10,
       .leaf n.format (str% "$1 $2 $3"), .s8], .s8,
     .elem n.numberFormat [(n.pattern, str% "(\\d{4})(\\d{3})(\\d{3})")]
      [.s10,
       .leaf n.leadingDigits (str% "1"), .s10,
       .leaf n.format (str% "$1 $2 $3"), .s8], .s6], .s6,
   .elem n.generalDesc []
    [.s8,
     .leaf n.nationalNumberPattern (str% "\n          [2489]2\\d{6}|\n          (?:\n            1\\d|\n            5\n          )\\d{8}\n        "), .s6], .s6,
   .elem n.fixedLine []
    [.s8,
     .empty n.possibleLengths [(n.national, str% "8"), (n.localOnly, str% "7")], .s8,
     .leaf n.exampleNumber (str% "22234567"), .s8,
     .leaf n.nationalNumberPattern (str% "\n          (?:\n            22[2-47-9]|\n            42[45]|\n            82[014-68]|\n            92[3569]\n          )\\d{5}\n        "), .s6], .s6,
   .elem n.mobile []
    [.s8,
     .empty n.possibleLengths [(n.national, str% "9")], .s8,
     .leaf n.exampleNumber (str% "599123456"), .s8,
     .leaf n.nationalNumberPattern (str% "5[69]\\d{7}"), .s6], .s6,
   .elem n.tollFree []
    [.s8,
     .empty n.possibleLengths [(n.national, str% "10")], .s8,
     .leaf n.exampleNumber (str% "1800123456"), .s8,
     .leaf n.nationalNumberPattern (str% "1800\\d{6}"), .s6], .s6,
   .elem n.sharedCost []
    [.s8,
     .empty n.possibleLengths [(n.national, str% "10")], .s8,
     .leaf n.exampleNumber (str% "1700123456"), .s8,
     .leaf n.nationalNumberPattern (str% "1700\\d{6}"), .s6], .s4]

/-- what stands before this territory -/
noncomputable def PT_before : List Node :=
  [.l4, .comment, .s4, .comment, .s4]
/-- its attributes -/
noncomputable def PT_attrs : List (Str × Str) := [(n.id, str% "PT"), (n.countryCode, str% "351"), (n.internationalPrefix, str% "00"), (n.mobileNumberPortableRegion, str% "true")]
/-- its content -/
noncomputable def PT : List Node :=
  [.s6,
   .elem n.availableFormats []
    [.s8, .comment, .s8,
     .elem n.numberFormat [(n.pattern, str% "(\\d{2})(\\d{3})(\\d{4})")]
      [.s10,
       .leaf n.leadingDigits (str% "2[12]"), .s10,
       .leaf n.format (str% "$1 $2 $3"), .s8], .s8,
     .elem n.numberFormat [(n.pattern, str% "(\\d{3})(\\d{3})(\\d{3})")]
      [.s10,
       .leaf n.leadingDigits (str% "\n            16|\n            [236-9]\n          "), .s10,
       .leaf n.format (str% "$1 $2 $3"), .s8], .s6], .s6,
   .elem n.generalDesc []
    [.s8,
     .leaf n.nationalNumberPattern (str% "\n          1693\\d{5}|\n          (?:\n            [26-9]\\d|\n            30\n          )\\d{7}\n        "), .s6], .s6,
   .elem n.fixedLine []
    [.s8,
     .empty n.possibleLengths [(n.national, str% "9")], .s8,
     .leaf n.exampleNumber (str% "212345678"), .s8,
     .leaf n.nationalNumberPattern (str% "\n          2(?:\n            [12]\\d|\n            3[1-689]|\n            4[1-59]|\n            [57][1-9]|\n            6[1-35689]|\n            8[1-69]|\n            9[1256]\n          )\\d{6}\n        "), .s6], .s6,
   .elem n.mobile []
    [.s8,
     .empty n.possibleLengths [(n.national, str% "9")], .s8,
     .leaf n.exampleNumber (str% "912345678"), .s8,
     .leaf n.nationalNumberPattern (str% "\n          6(?:\n            [06]92(?:\n              30|\n              9\\d\n            )|\n            [35]92(?:\n              [049]\\d|\n              3[034]\n            )\n          )\\d{3}|\n          (?:\n            (?:\n              16|\n              6[0356]\n            )93|\n            9(?:\n              [1-36]\\d\\d|\n              480\n            )\n          )\\d{5}\n        "), .s6], .s6,
   .elem n.pager []
    [.s8,
     .empty n.possibleLengths [(n.national, str% "9")], .s8,
     .leaf n.exampleNumber (str% "622212345"), .s8,
     .leaf n.nationalNumberPattern (str% "\n          6(?:\n            222\\d|\n            89(?:\n              00|\n              88|\n              99\n            )\n          )\\d{4}\n        "), .s6], .s6,
   .elem n.tollFree []
    [.s8,
     .empty n.possibleLengths [(n.national, str% "9")], .s8,
     .leaf n.exampleNumber (str% "800123456"), .s8,
     .leaf n.nationalNumberPattern (str% "80[02]\\d{6}"), .s6], .s6, .comment, .s6, .comment, .s6,
   .elem n.premiumRate []
    [.s8,
     .empty n.possibleLengths [(n.national, str% "9")], .s8,
     .leaf n.exampleNumber (str% "760123456"), .s8,
     .leaf n.nationalNumberPattern (str% "\n          (?:\n            6(?:\n              0[178]|\n              4[68]\n            )\\d|\n            76(?:\n              0[1-57]|\n              1[2-47]|\n              2[237]\n            )\n          )\\d{5}\n        "), .s6], .s6, .comment, .s6,
   .elem n.sharedCost []
    [.s8,
     .empty n.possibleLengths [(n.national, str% "9")], .s8,
     .leaf n.exampleNumber (str% "808123456"), .s8,
     .leaf n.nationalNumberPattern (str% "\n          80(?:\n            8\\d|\n            9[1579]\n          )\\d{5}\n        "), .s6], .s6,
   .elem n.personalNumber []
    [.s8,
     .empty n.possibleLengths [(n.national, str% "9")], .s8,
     .leaf n.exampleNumber (str% "884123456"), .s8,
     .leaf n.nationalNumberPattern (str% "884[0-4689]\\d{5}"), .s6], .s6,
   .elem n.voip []
    [.s8,
     .empty n.possibleLengths [(n.national, str% "9")], .s8,
     .leaf n.exampleNumber (str% "301234567"), .s8,
     .leaf n.nationalNumberPattern (str% "30\\d{7}"), .s6], .s6,
   .elem n.uan []
    [.s8,
     .empty n.possibleLengths [(n.national, str% "9")], .s8,
     .leaf n.exampleNumber (str% "707123456"), .s8,
     .leaf n.nationalNumberPattern (str% "\n          70(?:\n            38[01]|\n            596|\n            (?:\n              7\\d|\n              8[17]\n            )\\d\n          )\\d{4}\n        "), .s6], .s6,
   .elem n.voicemail []
    [.s8,
     .empty n.possibleLengths [(n.national, str% "9")], .s8,
     .leaf n.exampleNumber (str% "600110000"), .s8,
     .leaf n.nationalNumberPattern (str% "\n          600\\d{6}|\n          6[06]92(?:\n            0\\d|\n            3[349]|\n            49\n          )\\d{3}\n        "), .s6], .s4]

/-- what stands before this territory -/
noncomputable def PW_before : List Node :=
  [.l4, .comment, .s4, .comment, .s4]
/-- its attributes -/
noncomputable def PW_attrs : List (Str × Str) := [(n.id, str% "PW"), (n.countryCode, str% "680"), (n.internationalPrefix, str% "01[12]")]
/-- its content -/
noncomputable def PW : List Node :=
  [.s6,
   .elem n.availableFormats []
    [.s8,
     .elem n.numberFormat [(n.pattern, str% "(\\d{3})(\\d{4})")]
      [.s10,
       .leaf n.leadingDigits (str% "[2-9]"), .s10,
       .leaf n.format (str% "$1 $2"), .s8], .s6], .s6,
   .elem n.generalDesc []
    [.s8,
     .leaf n.nationalNumberPattern (str% "\n          (?:\n            [24-8]\\d\\d|\n            345|\n            900\n          )\\d{4}\n        "), .s6], .s6, .comment, .s6,
   .elem n.fixedLine []
    [.s8,
     .empty n.possibleLengths [(n.national, str% "7")], .s8,
     .leaf n.exampleNumber (str% "2771234"), .s8,
     .leaf n.nationalNumberPattern (str% "\n          (?:\n            2(?:\n              55|\n              77\n            )|\n            345|\n            488|\n            5(?:\n              35|\n              44|\n              87\n            )|\n            6(?:\n              22|\n              54|\n              79\n            )|\n            7(?:\n              33|\n              47\n            )|\n            8(?:\n              24|\n              55|\n              76\n            )|\n            900\n          )\\d{4}\n        "), .s6], .s6,
   .elem n.mobile []
    [.s8,
     .empty n.possibleLengths [(n.national, str% "7")], .s8,
     .leaf n.exampleNumber (str% "6201234"), .s8,
     .leaf n.nationalNumberPattern (str% "\n          (?:\n            (?:\n              46|\n              83\n            )[0-5]|\n            (?:\n              6[2-4689]|\n              78\n            )0\n          )\\d{4}|\n          (?:\n            45|\n            77|\n            88\n          )\\d{5}\n        "), .s6], .s4]

/-- what stands before this territory -/
noncomputable def PY_before : List Node :=
  [.l4, .comment, .s4, .comment, .s4, .comment, .s4, .comment, .s4, .comment, .s4]
/-- its attributes -/
noncomputable def PY_attrs : List (Str × Str) := [(n.id, str% "PY"), (n.countryCode, str% "595"), (n.internationalPrefix, str% "00"), (n.nationalPrefix, str% "0"), (n.mobileNumberPortableRegion, str% "true")]
/-- its content -/
noncomputable def PY : List Node :=
  [.s6,
   .elem n.availableFormats []
    [.s8, .comment, .s8,
     .elem n.numberFormat [(n.pattern, str% "(\\d{6,7})")]
      [.s10,
       .leaf n.leadingDigits (str% "\n            [125]|\n            4[01]\n          "), .s10,
       .leaf n.format (str% "$1"), .s10,
       .leaf n.intlFormat (str% "NA"), .s8], .s8,
     .elem n.numberFormat [(n.pattern, str% "(\\d{3})(\\d{3,6})"), (n.nationalPrefixFormattingRule, str% "$NP$FG")]
      [.s10,
       .leaf n.leadingDigits (str% "[2-9]0"), .s10,
       .leaf n.format (str% "$1 $2"), .s8], .s8, .comment, .s8,
     .elem n.numberFormat [(n.pattern, str% "(\\d{2})(\\d{5})"), (n.nationalPrefixFormattingRule, str% "($NP$FG)")]
      [.s10,
       .leaf n.leadingDigits (str% "\n            3[289]|\n            4[246-8]|\n            61|\n            7[1-3]|\n            8[1-36]\n          "), .s10,
       .leaf n.format (str% "$1 $2"), .s8], .s8, .comment, .s8,
     .elem n.numberFormat [(n.pattern, str% "(\\d{3})(\\d{4,5})"), (n.nationalPrefixFormattingRule, str% "($NP$FG)")]
      [.s10,
       .leaf n.leadingDigits (str% "\n            2[279]|\n            3[13-5]|\n            4[359]|\n            5|\n            6(?:\n              [34]|\n              7[1-46-8]\n            )|\n            7[46-8]|\n            85\n          "), .s10,
       .leaf n.format (str% "$1 $2"), .s8], .s8, .comment, .s8,
     .elem n.numberFormat [(n.pattern, str% "(\\d{2})(\\d{3})(\\d{3,4})"), (n.nationalPrefixFormattingRule, str% "($NP$FG)")]
      [.s10,
       .leaf n.leadingDigits (str% "\n            2[14-68]|\n            3[26-9]|\n            4[1246-8]|\n            6(?:\n              1|\n              75\n            )|\n            7[1-35]|\n            8[1-36]\n          "), .s10,
       .leaf n.format (str% "$1 $2 $3"), .s8], .s8, .comment, .s8,
     .elem n.numberFormat [(n.pattern, str% "(\\d{2})(\\d{3})(\\d{4})")]
      [.s10,
       .leaf n.leadingDigits (str% "87"), .s10,
       .leaf n.format (str% "$1 $2 $3"), .s8], .s8,
     .elem n.numberFormat [(n.pattern, str% "(\\d{3})(\\d{6})"), (n.nationalPrefixFormattingRule, str% "$NP$FG")]
      [.s10,
       .leaf n.leadingDigits (str% "\n            9(?:\n              [5-79]|\n              8[1-7]\n            )\n          "), .s10,
       .leaf n.format (str% "$1 $2"), .s8], .s8,
     .elem n.numberFormat [(n.pattern, str% "(\\d{3})(\\d{3})(\\d{3})"), (n.nationalPrefixFormattingRule, str% "$NP$FG")]
      [.s10,
       .leaf n.leadingDigits (str% "[2-8]"), .s10,
       .leaf n.format (str% "$1 $2 $3"), .s8], .s8, .comment, .s8,
     .elem n.numberFormat [(n.pattern, str% "(\\d{4})(\\d{3})(\\d{4})")]
      [.s10,
       .leaf n.leadingDigits (str% "9"), .s10,
       .leaf n.format (str% "$1 $2 $3"), .s8], .s6], .s6,
   .elem n.generalDesc []
    [.s8,
     .leaf n.nationalNumberPattern (str% "\n          [36-8]\\d{5,8}|\n          4\\d{6,8}|\n          59\\d{6}|\n          9\\d{5,10}|\n          (?:\n            2\\d|\n            5[0-8]\n          )\\d{6,7}\n        "), .s6], .s6,
   .elem n.fixedLine []
    [.s8,
     .empty n.possibleLengths [(n.national, str% "[7-9]"), (n.localOnly, str% "5,6")], .s8,
     .leaf n.exampleNumber (str% "212345678"), .s8,
     .leaf n.nationalNumberPattern (str% "\n          (?:\n            3[289]|\n            4[246-8]|\n            61|\n            7[1-3]|\n            8[1-36]\n          )\\d{5,7}|\n          (?:\n            2(?:\n              [14-68]\\d|\n              2[4-68]|\n              7[15]|\n              9[1-5]\n            )|\n            3(?:\n              18|\n              3[167]|\n              4[2357]|\n              51|\n              [67]\\d\n            )|\n            4(?:\n              1\\d|\n              3[12]|\n              5[13]|\n              9[1-47]\n            )|\n            5(?:\n              [1-4]\\d|\n              5[02-4]\n            )|\n            6(?:\n              3[1-3]|\n              44|\n              7[1-8]\n            )|\n            7(?:\n              4[0-4]|\n              5\\d|\n              6[1-578]|\n              75|\n              8[0-8]\n            )|\n            858\n          )\\d{5,6}\n        "), .s6], .s6,
   .elem n.mobile []
    [.s8,
     .empty n.possibleLengths [(n.national, str% "9")], .s8,
     .leaf n.exampleNumber (str% "961456789"), .s8,
     .leaf n.nationalNumberPattern (str% "\n          9(?:\n            51|\n            6[129]|\n            7[1-6]|\n            8[1-7]|\n            9[1-5]\n          )\\d{6}\n        "), .s6], .s6,
   .elem n.tollFree []
    [.s8,
     .empty n.possibleLengths [(n.national, str% "[9-11]")], .s8,
     .leaf n.exampleNumber (str% "98000123456"), .s8,
     .leaf n.nationalNumberPattern (str% "9800\\d{5,7}"), .s6], .s6,
   .elem n.voip []
    [.s8,
     .empty n.possibleLengths [(n.national, str% "9")], .s8,
     .leaf n.exampleNumber (str% "870012345"), .s8,
     .leaf n.nationalNumberPattern (str% "8700[0-4]\\d{4}"), .s6], .s6,
   .elem n.uan []
    [.s8,
     .empty n.possibleLengths [(n.national, str% "[6-9]")], .s8,
     .leaf n.exampleNumber (str% "201234567"), .s8,
     .leaf n.nationalNumberPattern (str% "\n          [245]0\\d{6,7}|\n          [36-9]0\\d{4,7}\n        "), .s6], .s4]

/-- what stands before this territory -/
noncomputable def QA_before : List Node :=
  [.l4, .comment, .s4, .comment, .s4, .comment, .s4, .comment, .s4]
/-- its attributes -/
noncomputable def QA_attrs : List (Str × Str) := [(n.id, str% "QA"), (n.countryCode, str% "974"), (n.internationalPrefix, str% "00"), (n.mobileNumberPortableRegion, str% "true")]
/-- its content -/
noncomputable def QA : List Node :=
  [.s6,
   .elem n.availableFormats []
    [.s8,
     .elem n.numberFormat [(n.pattern, str% "(\\d{3})(\\d{4})")]
      [.s10,
       .leaf n.leadingDigits (str% "\n            2[136]|\n            8\n          "), .s10,
       .leaf n.format (str% "$1 $2"), .s8], .s8,
     .elem n.numberFormat [(n.pattern, str% "(\\d{4})(\\d{4})")]
      [.s10,
       .leaf n.leadingDigits (str% "[3-7]"), .s10,
       .leaf n.format (str% "$1 $2"), .s8], .s6], .s6,
   .elem n.generalDesc []
    [.s8,
     .leaf n.nationalNumberPattern (str% "\n          800\\d{4}|\n          (?:\n            2|\n            800\n          )\\d{6}|\n          (?:\n            0080|\n            [3-7]\n          )\\d{7}\n        "), .s6], .s6, .comment, .s6,
   .elem n.fixedLine []
    [.s8,
     .empty n.possibleLengths [(n.national, str% "8")], .s8,
     .leaf n.exampleNumber (str% "44123456"), .s8,
     .leaf n.nationalNumberPattern (str% "\n          4(?:\n            (?:\n              [014]\\d\\d|\n              999\n            )\\d|\n            2022\n          )\\d{3}\n        "), .s6], .s6,
   .elem n.mobile []
    [.s8,
     .empty n.possibleLengths [(n.national, str% "8")], .s8,
     .leaf n.exampleNumber (str% "33123456"), .s8,
     .leaf n.nationalNumberPattern (str% "[35-7]\\d{7}"), .s6], .s6,
   .elem n.pager []
    [.s8,
     .empty n.possibleLengths [(n.national, str% "7")], .s8,
     .leaf n.exampleNumber (str% "2123456"), .s8,
     .leaf n.nationalNumberPattern (str% "2[136]\\d{5}"), .s6], .s6, .comment, .s6,
   .elem n.tollFree []
    [.s8,
     .empty n.possibleLengths [(n.national, str% "7,9,11")], .s8,
     .leaf n.exampleNumber (str% "8001234"), .s8,
     .leaf n.nationalNumberPattern (str% "\n          800\\d{4}|\n          (?:\n            0080[01]|\n            800\n          )\\d{6}\n        "), .s6], .s4]

/-- what stands before this territory -/
noncomputable def RE_before : List Node :=
  [.l4, .comment, .s4, .comment, .s4, .comment, .s4, .comment, .s4]
/-- its attributes -/
noncomputable def RE_attrs : List (Str × Str) := [(n.id, str% "RE"), (n.mainCountryForCode, str% "true"), (n.countryCode, str% "262"), (n.internationalPrefix, str% "00"), (n.nationalPrefix, str% "0")]
/-- its content -/
noncomputable def RE : List Node :=
  [.s6,
   .elem n.availableFormats []
    [.s8,
     .elem n.numberFormat [(n.pattern, str% "(\\d{3})(\\d{2})(\\d{2})(\\d{2})"), (n.nationalPrefixFormattingRule, str% "$NP$FG")]
      [.s10,
       .leaf n.leadingDigits (str% "[26-9]"), .s10,
       .leaf n.format (str% "$1 $2 $3 $4"), .s8], .s6], .s6,
   .elem n.generalDesc []
    [.s8,
     .leaf n.nationalNumberPattern (str% "\n          709\\d{6}|\n          (?:\n            26|\n            [689]\\d\n          )\\d{7}\n        "), .s6], .s6, .comment, .s6,
   .elem n.fixedLine []
    [.s8,
     .empty n.possibleLengths [(n.national, str% "9")], .s8,
     .leaf n.exampleNumber (str% "262161234"), .s8,
     .leaf n.nationalNumberPattern (str% "\n          2631[0-6]\\d{4}|\n          26(?:\n            2\\d|\n            30|\n            88\n          )\\d{5}\n        "), .s6], .s6,
   .elem n.mobile []
    [.s8,
     .empty n.possibleLengths [(n.national, str% "9")], .s8,
     .leaf n.exampleNumber (str% "692123456"), .s8,
     .leaf n.nationalNumberPattern (str% "\n          (?:\n            69(?:\n              2\\d\\d|\n              3(?:\n                [06][0-6]|\n                1[0-3]|\n                2[0-2]|\n                3[0-39]|\n                4\\d|\n                5[0-5]|\n                7[0-37]|\n                8[0-8]|\n                9[0-479]\n              )\n            )|\n            7092[0-3]\n          )\\d{4}\n        "), .s6], .s6, .comment, .s6,
   .elem n.tollFree []
    [.s8,
     .empty n.possibleLengths [(n.national, str% "9")], .s8,
     .leaf n.exampleNumber (str% "801234567"), .s8,
     .leaf n.nationalNumberPattern (str% "80\\d{7}"), .s6], .s6,
   .elem n.premiumRate []
    [.s8,
     .empty n.possibleLengths [(n.national, str% "9")], .s8,
     .leaf n.exampleNumber (str% "891123456"), .s8,
     .leaf n.nationalNumberPattern (str% "89[1-37-9]\\d{6}"), .s6], .s6,
   .elem n.sharedCost []
    [.s8,
     .empty n.possibleLengths [(n.national, str% "9")], .s8,
     .leaf n.exampleNumber (str% "810123456"), .s8,
     .leaf n.nationalNumberPattern (str% "\n          8(?:\n            1[019]|\n            2[0156]|\n            84|\n            90\n          )\\d{6}\n        "), .s6], .s6,
   .elem n.voip []
    [.s8,
     .empty n.possibleLengths [(n.national, str% "9")], .s8,
     .leaf n.exampleNumber (str% "939901234"), .s8,
     .leaf n.nationalNumberPattern (str% "\n          9(?:\n            399[0-3]|\n            479[0-6]|\n            76(?:\n              2[278]|\n              3[0-37]\n            )\n          )\\d{4}\n        "), .s6], .s4]

/-- what stands before this territory -/
noncomputable def RO_before : List Node :=
  [.l4, .comment, .s4, .comment, .s4, .comment, .s4, .comment, .s4, .comment, .s4]
/-- its attributes -/
noncomputable def RO_attrs : List (Str × Str) := [(n.id, str% "RO"), (n.countryCode, str% "40"), (n.internationalPrefix, str% "00"), (n.nationalPrefix, str% "0"), (n.preferredExtnPrefix, str% " int "), (n.mobileNumberPortableRegion, str% "true")]
/-- its content -/
noncomputable def RO : List Node :=
  [.s6,
   .elem n.availableFormats []
    [.s8,
     .elem n.numberFormat [(n.pattern, str% "(\\d{3})(\\d{3})"), (n.nationalPrefixFormattingRule, str% "$NP$FG")]
      [.s10,
       .leaf n.leadingDigits (str% "2[3-6]"), .s10,
       .leaf n.leadingDigits (str% "2[3-6]\\d9"), .s10,
       .leaf n.format (str% "$1 $2"), .s8], .s8,
     .elem n.numberFormat [(n.pattern, str% "(\\d{2})(\\d{4})"), (n.nationalPrefixFormattingRule, str% "$NP$FG")]
      [.s10,
       .leaf n.leadingDigits (str% "\n            219|\n            31\n          "), .s10,
       .leaf n.format (str% "$1 $2"), .s8], .s8,
     .elem n.numberFormat [(n.pattern, str% "(\\d{2})(\\d{3})(\\d{4})"), (n.nationalPrefixFormattingRule, str% "$NP$FG")]
      [.s10,
       .leaf n.leadingDigits (str% "[23]1"), .s10,
       .leaf n.format (str% "$1 $2 $3"), .s8], .s8, .comment, .s8,
     .elem n.numberFormat [(n.pattern, str% "(\\d{3})(\\d{3})(\\d{3})"), (n.nationalPrefixFormattingRule, str% "$NP$FG")]
      [.s10,
       .leaf n.leadingDigits (str% "[236-9]"), .s10,
       .leaf n.format (str% "$1 $2 $3"), .s8], .s6], .s6,
   .elem n.generalDesc []
    [.s8,
     .leaf n.nationalNumberPattern (str% "\n          (?:\n            [236-8]\\d|\n            90\n          )\\d{7}|\n          [23]\\d{5}\n        "), .s6], .s6, .comment, .s6,
   .elem n.fixedLine []
    [.s8,
     .empty n.possibleLengths [(n.national, str% "6,9")], .s8,
     .leaf n.exampleNumber (str% "211234567"), .s8,
     .leaf n.nationalNumberPattern (str% "\n          [23][13-6]\\d{7}|\n          (?:\n            2(?:\n              19\\d|\n              [3-6]\\d9\n            )|\n            31\\d\\d\n          )\\d\\d\n        "), .s6], .s6, .comment, .s6,
   .elem n.mobile []
    [.s8,
     .empty n.possibleLengths [(n.national, str% "9")], .s8,
     .leaf n.exampleNumber (str% "712034567"), .s8,
     .leaf n.nationalNumberPattern (str% "\n          (?:\n            630|\n            702\n          )0\\d{5}|\n          (?:\n            6(?:\n              00|\n              2\\d\n            )|\n            7(?:\n              0[013-9]|\n              1[0-3]|\n              [2-7]\\d|\n              8[03-8]|\n              9[0-39]\n            )\n          )\\d{6}\n        "), .s6], .s6,
   .elem n.tollFree []
    [.s8,
     .empty n.possibleLengths [(n.national, str% "9")], .s8,
     .leaf n.exampleNumber (str% "800123456"), .s8,
     .leaf n.nationalNumberPattern (str% "800\\d{6}"), .s6], .s6,
   .elem n.premiumRate []
    [.s8,
     .empty n.possibleLengths [(n.national, str% "9")], .s8,
     .leaf n.exampleNumber (str% "900123456"), .s8,
     .leaf n.nationalNumberPattern (str% "90[0136]\\d{6}"), .s6], .s6, .comment, .s6,
   .elem n.sharedCost []
    [.s8,
     .empty n.possibleLengths [(n.national, str% "9")], .s8,
     .leaf n.exampleNumber (str% "801123456"), .s8,
     .leaf n.nationalNumberPattern (str% "801\\d{6}"), .s6], .s6, .comment, .s6,
   .elem n.uan []
    [.s8,
     .empty n.possibleLengths [(n.national, str% "9")], .s8,
     .leaf n.exampleNumber (str% "372123456"), .s8,
     .leaf n.nationalNumberPattern (str% "\n          (?:\n            37\\d|\n            80[578]\n          )\\d{6}\n        "), .s6], .s4]

/-- what stands before this territory -/
noncomputable def RS_before : List Node :=
  [.l4, .comment, .s4, .comment, .s4, .comment, .s4]
/-- its attributes -/
noncomputable def RS_attrs : List (Str × Str) := [(n.id, str% "RS"), (n.countryCode, str% "381"), (n.internationalPrefix, str% "00"), (n.nationalPrefix, str% "0"), (n.mobileNumberPortableRegion, str% "true")]
/-- its content -/
noncomputable def RS : List Node :=
  [.s6,
   .elem n.availableFormats []
    [.s8, .comment, .s8,
     .elem n.numberFormat [(n.pattern, str% "(\\d{3})(\\d{3,9})"), (n.nationalPrefixFormattingRule, str% "$NP$FG")]
      [.s10,
       .leaf n.leadingDigits (str% "\n            (?:\n              2[389]|\n              39\n            )0|\n            [7-9]\n          "), .s10,
       .leaf n.format (str% "$1 $2"), .s8], .s8, .comment, .s8,
     .elem n.numberFormat [(n.pattern, str% "(\\d{2})(\\d{5,10})"), (n.nationalPrefixFormattingRule, str% "$NP$FG")]
      [.s10,
       .leaf n.leadingDigits (str% "[1-36]"), .s10,
       .leaf n.format (str% "$1 $2"), .s8], .s6], .s6,
   .elem n.generalDesc []
    [.s8,
     .leaf n.nationalNumberPattern (str% "\n          38[02-9]\\d{6,9}|\n          6\\d{7,9}|\n          90\\d{4,8}|\n          38\\d{5,6}|\n          (?:\n            7\\d\\d|\n            800\n          )\\d{3,9}|\n          (?:\n            [12]\\d|\n            3[0-79]\n          )\\d{5,10}\n        "), .s6], .s6, .comment, .s6,
   .elem n.fixedLine []
    [.s8,
     .empty n.possibleLengths [(n.national, str% "[7-12]"), (n.localOnly, str% "[4-6]")], .s8,
     .leaf n.exampleNumber (str% "10234567"), .s8,
     .leaf n.nationalNumberPattern (str% "\n          (?:\n            11[1-9]\\d|\n            (?:\n              2[389]|\n              39\n            )(?:\n              0[2-9]|\n              [2-9]\\d\n            )\n          )\\d{3,8}|\n          (?:\n            1[02-9]|\n            2[0-24-7]|\n            3[0-8]\n          )[2-9]\\d{4,9}\n        "), .s6], .s6,
   .elem n.mobile []
    [.s8,
     .empty n.possibleLengths [(n.national, str% "[8-10]")], .s8,
     .leaf n.exampleNumber (str% "601234567"), .s8,
     .leaf n.nationalNumberPattern (str% "\n          6(?:\n            [0-689]|\n            7\\d\n          )\\d{6,7}\n        "), .s6], .s6,
   .elem n.tollFree []
    [.s8,
     .empty n.possibleLengths [(n.national, str% "[6-12]")], .s8,
     .leaf n.exampleNumber (str% "80012345"), .s8,
     .leaf n.nationalNumberPattern (str% "800\\d{3,9}"), .s6], .s6,
   .elem n.premiumRate []
    [.s8,
     .empty n.possibleLengths [(n.national, str% "[6-10]")], .s8,
     .leaf n.exampleNumber (str% "90012345"), .s8,
     .leaf n.nationalNumberPattern (str% "\n          (?:\n            78\\d|\n            90[0169]\n          )\\d{3,7}\n        "), .s6], .s6,
   .elem n.uan []
    [.s8,
     .empty n.possibleLengths [(n.national, str% "[6-12]")], .s8,
     .leaf n.exampleNumber (str% "700123456"), .s8,
     .leaf n.nationalNumberPattern (str% "7[06]\\d{4,10}"), .s6], .s4]

/-- what stands before this territory -/
noncomputable def RU_before : List Node :=
  [.l4, .comment, .s4, .comment, .s4, .comment, .s4, .comment, .s4, .comment, .s4]
/-- its attributes -/
noncomputable def RU_attrs : List (Str × Str) := [(n.id, str% "RU"), (n.mainCountryForCode, str% "true"), (n.countryCode, str% "7"), (n.leadingDigits, str% "[3489]"), (n.preferredInternationalPrefix, str% "8~10"), (n.internationalPrefix, str% "810"), (n.nationalPrefix, str% "8"), (n.mobileNumberPortableRegion, str% "true")]
/-- its content -/
noncomputable def RU : List Node :=
  [.s6,
   .elem n.availableFormats []
    [.s8,
     .elem n.numberFormat [(n.pattern, str% "(\\d{3})(\\d{2})(\\d{2})")]
      [.s10,
       .leaf n.leadingDigits (str% "[0-79]"), .s10,
       .leaf n.format (str% "$1-$2-$3"), .s10,
       .leaf n.intlFormat (str% "NA"), .s8], .s8, .comment, .s8,
     .elem n.numberFormat [(n.pattern, str% "(\\d{4})(\\d{2})(\\d{2})(\\d{2})"), (n.nationalPrefixFormattingRule, str% "$NP ($FG)"), (n.nationalPrefixOptionalWhenFormatting, str% "true")]
      [.s10,
       .leaf n.leadingDigits (str% "\n            7(?:\n              1[0-8]|\n              2[1-9]\n            )\n          "), .s10,
       .leaf n.leadingDigits (str% "\n            7(?:\n              1(?:\n                [0-356]2|\n                4[29]|\n                7|\n                8[27]\n              )|\n              2(?:\n                1[23]|\n                [2-9]2\n              )\n            )\n          "), .s10,
       .leaf n.leadingDigits (str% "\n            7(?:\n              1(?:\n                [0-356]2|\n                4[29]|\n                7|\n                8[27]\n              )|\n              2(?:\n                13[03-69]|\n                62[013-9]\n              )\n            )|\n            72[1-57-9]2\n          "), .s10,
       .leaf n.format (str% "$1 $2 $3 $4"), .s8], .s8, .comment, .s8,
     .elem n.numberFormat [(n.pattern, str% "(\\d{5})(\\d)(\\d{2})(\\d{2})"), (n.nationalPrefixFormattingRule, str% "$NP ($FG)"), (n.nationalPrefixOptionalWhenFormatting, str% "true")]
      [.s10,
       .leaf n.leadingDigits (str% "\n            7(?:\n              1[0-68]|\n              2[1-9]\n            )\n          "), .s10,
       .leaf n.leadingDigits (str% "\n            7(?:\n              1(?:\n                [06][3-6]|\n                [18]|\n                2[35]|\n                [3-5][3-5]\n              )|\n              2(?:\n                [13][3-5]|\n                [24-689]|\n                7[457]\n              )\n            )\n          "), .s10,
       .leaf n.leadingDigits (str% "\n            7(?:\n              1(?:\n                0(?:\n                  [356]|\n                  4[023]\n                )|\n                [18]|\n                2(?:\n                  3[013-9]|\n                  5\n                )|\n                3[45]|\n                43[013-79]|\n                5(?:\n                  3[1-8]|\n                  4[1-7]|\n                  5\n                )|\n                6(?:\n                  3[0-35-9]|\n                  [4-6]\n                )\n              )|\n              2(?:\n                1(?:\n                  3[178]|\n                  [45]\n                )|\n                [24-689]|\n                3[35]|\n                7[457]\n              )\n            )|\n            7(?:\n              14|\n              23\n            )4[0-8]|\n            71(?:\n              33|\n              45\n            )[1-79]\n          "), .s10,
       .leaf n.format (str% "$1 $2 $3 $4"), .s8], .s8, .comment, .s8,
     .elem n.numberFormat [(n.pattern, str% "(\\d{3})(\\d{3})(\\d{4})"), (n.nationalPrefixFormattingRule, str% "$NP ($FG)"), (n.nationalPrefixOptionalWhenFormatting, str% "true")]
      [.s10,
       .leaf n.leadingDigits (str% "7"), .s10,
       .leaf n.format (str% "$1 $2 $3"), .s8], .s8, .comment, .s8,
     .elem n.numberFormat [(n.pattern, str% "(\\d{3})(\\d{3})(\\d{2})(\\d{2})"), (n.nationalPrefixFormattingRule, str% "$NP ($FG)"), (n.nationalPrefixOptionalWhenFormatting, str% "true")]
      [.s10,
       .leaf n.leadingDigits (str% "\n            [349]|\n            8(?:\n              [02-7]|\n              1[1-8]\n            )\n          "), .s10,
       .leaf n.format (str% "$1 $2-$3-$4"), .s8], .s8,
     .elem n.numberFormat [(n.pattern, str% "(\\d{4})(\\d{4})(\\d{3})(\\d{3})"), (n.nationalPrefixFormattingRule, str% "$NP ($FG)")]
      [.s10,
       .leaf n.leadingDigits (str% "8"), .s10,
       .leaf n.format (str% "$1 $2 $3 $4"), .s8], .s6], .s6,
   .elem n.generalDesc []
    [.s8,
     .leaf n.nationalNumberPattern (str% "\n          8\\d{13}|\n          [347-9]\\d{9}\n        "), .s6], .s6, .comment, .s6,
   .elem n.fixedLine []
    [.s8,
     .empty n.possibleLengths [(n.national, str% "10"), (n.localOnly, str% "7")], .s8,
     .leaf n.exampleNumber (str% "3011234567"), .s8,
     .leaf n.nationalNumberPattern (str% "\n          (?:\n            3(?:\n              0[12]|\n              36|\n              4[1-35-79]|\n              5[1-3]|\n              65|\n              8[1-58]|\n              9[0145]\n            )|\n            4(?:\n              01|\n              1[1356]|\n              2[13467]|\n              7[1-5]|\n              8[1-7]|\n              9[1-689]\n            )|\n            8(?:\n              1[1-8]|\n              2[01]|\n              3[13-6]|\n              4[0-8]|\n              5[15-7]|\n              6[0-35-79]|\n              7[1-37-9]\n            )\n          )\\d{7}\n        "), .s6], .s6,
   .elem n.mobile []
    [.s8,
     .empty n.possibleLengths [(n.national, str% "10")], .s8,
     .leaf n.exampleNumber (str% "9123456789"), .s8,
     .leaf n.nationalNumberPattern (str% "9\\d{9}"), .s6], .s6, .comment, .s6,
   .elem n.tollFree []
    [.s8,
     .empty n.possibleLengths [(n.national, str% "10,14")], .s8,
     .leaf n.exampleNumber (str% "8001234567"), .s8,
     .leaf n.nationalNumberPattern (str% "\n          8(?:\n            0[04]|\n            108\\d{3}\n          )\\d{7}\n        "), .s6], .s6, .comment, .s6,
   .elem n.premiumRate []
    [.s8,
     .empty n.possibleLengths [(n.national, str% "10")], .s8,
     .leaf n.exampleNumber (str% "8091234567"), .s8,
     .leaf n.nationalNumberPattern (str% "80[39]\\d{7}"), .s6], .s6, .comment, .s6,
   .elem n.personalNumber []
    [.s8,
     .empty n.possibleLengths [(n.national, str% "10")], .s8,
     .leaf n.exampleNumber (str% "8081234567"), .s8,
     .leaf n.nationalNumberPattern (str% "808\\d{7}"), .s6], .s4]

/-- what stands before this territory -/
noncomputable def RW_before : List Node :=
  [.l4, .comment, .s4, .comment, .s4, .comment, .s4, .comment, .s4]
/-- its attributes -/
noncomputable def RW_attrs : List (Str × Str) := [(n.id, str% "RW"), (n.countryCode, str% "250"), (n.internationalPrefix, str% "00"), (n.nationalPrefix, str% "0")]
/-- its content -/
noncomputable def RW : List Node :=
  [.s6,
   .elem n.availableFormats []
    [.s8,
     .elem n.numberFormat [(n.pattern, str% "(\\d{2})(\\d{2})(\\d{2})(\\d{2})")]
      [.s10,
       .leaf n.leadingDigits (str% "0"), .s10,
       .leaf n.format (str% "$1 $2 $3 $4"), .s8], .s8,
     .elem n.numberFormat [(n.pattern, str% "(\\d{3})(\\d{3})(\\d{3})")]
      [.s10,
       .leaf n.leadingDigits (str% "2"), .s10,
       .leaf n.format (str% "$1 $2 $3"), .s8], .s8,
     .elem n.numberFormat [(n.pattern, str% "(\\d{3})(\\d{3})(\\d{3})"), (n.nationalPrefixFormattingRule, str% "$NP$FG")]
      [.s10,
       .leaf n.leadingDigits (str% "[7-9]"), .s10,
       .leaf n.format (str% "$1 $2 $3"), .s8], .s6], .s6,
   .elem n.generalDesc []
    [.s8,
     .leaf n.nationalNumberPattern (str% "\n          (?:\n            06|\n            [27]\\d\\d|\n            [89]00\n          )\\d{6}\n        "), .s6], .s6, .comment, .s6,
   .elem n.fixedLine []
    [.s8,
     .empty n.possibleLengths [(n.national, str% "8,9")], .s8,
     .leaf n.exampleNumber (str% "250123456"), .s8,
     .leaf n.nationalNumberPattern (str% "\n          (?:\n            06|\n            2[23568]\\d\n          )\\d{6}\n        "), .s6], .s6, .comment, .s6,
   .elem n.mobile []
    [.s8,
     .empty n.possibleLengths [(n.national, str% "9")], .s8,
     .leaf n.exampleNumber (str% "720123456"), .s8,
     .leaf n.nationalNumberPattern (str% "7[237-9]\\d{7}"), .s6], .s6,
   .elem n.tollFree []
    [.s8,
     .empty n.possibleLengths [(n.national, str% "9")], .s8,
     .leaf n.exampleNumber (str% "800123456"), .s8,
     .leaf n.nationalNumberPattern (str% "800\\d{6}"), .s6], .s6,
   .elem n.premiumRate []
    [.s8,
     .empty n.possibleLengths [(n.national, str% "9")], .s8,
     .leaf n.exampleNumber (str% "900123456"), .s8,
     .leaf n.nationalNumberPattern (str% "900\\d{6}"), .s6], .s4]

/-- what stands before this territory -/
noncomputable def SA_before : List Node :=
  [.l4, .comment, .s4, .comment, .s4, .comment, .s4]
/-- its attributes -/
noncomputable def SA_attrs : List (Str × Str) := [(n.id, str% "SA"), (n.countryCode, str% "966"), (n.internationalPrefix, str% "00"), (n.nationalPrefix, str% "0"), (n.mobileNumberPortableRegion, str% "true")]
/-- its content -/
noncomputable def SA : List Node :=
  [.s6,
   .elem n.availableFormats []
    [.s8, .comment, .s8,
     .elem n.numberFormat [(n.pattern, str% "(\\d{4})(\\d{5})")]
      [.s10,
       .leaf n.leadingDigits (str% "9"), .s10,
       .leaf n.format (str% "$1 $2"), .s8], .s8,
     .elem n.numberFormat [(n.pattern, str% "(\\d{2})(\\d{3})(\\d{4})"), (n.nationalPrefixFormattingRule, str% "$NP$FG")]
      [.s10,
       .leaf n.leadingDigits (str% "1"), .s10,
       .leaf n.format (str% "$1 $2 $3"), .s8], .s8,
     .elem n.numberFormat [(n.pattern, str% "(\\d{2})(\\d{3})(\\d{4})"), (n.nationalPrefixFormattingRule, str% "$NP$FG")]
      [.s10,
       .leaf n.leadingDigits (str% "5"), .s10,
       .leaf n.format (str% "$1 $2 $3"), .s8], .s8,
     .elem n.numberFormat [(n.pattern, str% "(\\d{3})(\\d{3})(\\d{4})")]
      [.s10,
       .leaf n.leadingDigits (str% "8"), .s10,
       .leaf n.format (str% "$1 $2 $3"), .s8], .s6], .s6,
   .elem n.generalDesc []
    [.s8,
     .leaf n.nationalNumberPattern (str% "\n          (?:\n            [15]\\d|\n            800|\n            92\n          )\\d{7}\n        "), .s6], .s6,
   .elem n.fixedLine []
    [.s8,
     .empty n.possibleLengths [(n.national, str% "9"), (n.localOnly, str% "7")], .s8,
     .leaf n.exampleNumber (str% "112345678"), .s8,
     .leaf n.nationalNumberPattern (str% "\n          1(?:\n            1\\d|\n            2[24-8]|\n            3[35-8]|\n            4[3-68]|\n            6[2-5]|\n            7[235-7]\n          )\\d{6}\n        "), .s6], .s6,
   .elem n.mobile []
    [.s8,
     .empty n.possibleLengths [(n.national, str% "9")], .s8,
     .leaf n.exampleNumber (str% "512345678"), .s8,
     .leaf n.nationalNumberPattern (str% "\n          579[0-8]\\d{5}|\n          5(?:\n            [013-689]\\d|\n            7[0-8]\n          )\\d{6}\n        "), .s6], .s6,
   .elem n.tollFree []
    [.s8,
     .empty n.possibleLengths [(n.national, str% "10")], .s8,
     .leaf n.exampleNumber (str% "8001234567"), .s8,
     .leaf n.nationalNumberPattern (str% "800\\d{7}"), .s6], .s6, .comment, .s6,
   .elem n.premiumRate []
    [.s8,
     .empty n.possibleLengths [(n.national, str% "9")], .s8,
     .leaf n.exampleNumber (str% "925012345"), .s8,
     .leaf n.nationalNumberPattern (str% "925\\d{6}"), .s6], .s6,
   .elem n.sharedCost []
    [.s8,
     .empty n.possibleLengths [(n.national, str% "9")], .s8,
     .leaf n.exampleNumber (str% "920012345"), .s8,
     .leaf n.nationalNumberPattern (str% "920\\d{6}"), .s6], .s4]

/-- what stands before this territory -/
noncomputable def SB_before : List Node :=
  [.l4, .comment, .s4, .comment, .s4, .comment, .s4]
/-- its attributes -/
noncomputable def SB_attrs : List (Str × Str) := [(n.id, str% "SB"), (n.countryCode, str% "677"), (n.internationalPrefix, str% "0[01]")]
/-- its content -/
noncomputable def SB : List Node :=
  [.s6,
   .elem n.availableFormats []
    [.s8,
     .elem n.numberFormat [(n.pattern, str% "(\\d{2})(\\d{5})")]
      [.s10,
       .leaf n.leadingDigits (str% "\n            6[89]|\n            7|\n            8[4-9]|\n            9(?:\n              [1-8]|\n              9[0-8]\n            )\n          "), .s10,
       .leaf n.format (str% "$1 $2"), .s8], .s6], .s6,
   .elem n.generalDesc []
    [.s8,
     .leaf n.nationalNumberPattern (str% "\n          [6-9]\\d{6}|\n          [1-6]\\d{4}\n        "), .s6], .s6, .comment, .s6,
   .elem n.fixedLine []
    [.s8,
     .empty n.possibleLengths [(n.national, str% "5")], .s8,
     .leaf n.exampleNumber (str% "40123"), .s8,
     .leaf n.nationalNumberPattern (str% "\n          (?:\n            1[4-79]|\n            [23]\\d|\n            4[0-2]|\n            5[03]|\n            6[0-37]\n          )\\d{3}\n        "), .s6], .s6,
   .elem n.mobile []
    [.s8,
     .empty n.possibleLengths [(n.national, str% "5,7")], .s8,
     .leaf n.exampleNumber (str% "7421234"), .s8,
     .leaf n.nationalNumberPattern (str% "\n          48\\d{3}|\n          (?:\n            (?:\n              6[89]|\n              7[1-9]|\n              8[4-9]\n            )\\d|\n            9(?:\n              1[2-9]|\n              2[013-9]|\n              3[0-2]|\n              [46]\\d|\n              5[0-46-9]|\n              7[0-689]|\n              8[0-79]|\n              9[0-8]\n            )\n          )\\d{4}\n        "), .s6], .s6,
   .elem n.tollFree []
    [.s8,
     .empty n.possibleLengths [(n.national, str% "5")], .s8,
     .leaf n.exampleNumber (str% "18123"), .s8,
     .leaf n.nationalNumberPattern (str% "1[38]\\d{3}"), .s6], .s6,
   .elem n.voip []
    [.s8,
     .empty n.possibleLengths [(n.national, str% "5")], .s8,
     .leaf n.exampleNumber (str% "51123"), .s8,
     .leaf n.nationalNumberPattern (str% "5[12]\\d{3}"), .s6], .s4]

/-- what stands before this territory -/
noncomputable def SC_before : List Node :=
  [.l4, .comment, .s4, .comment, .s4, .comment, .s4]
/-- its attributes -/
noncomputable def SC_attrs : List (Str × Str) := [(n.id, str% "SC"), (n.countryCode, str% "248"), (n.preferredInternationalPrefix, str% "00"), (n.internationalPrefix, str% "010|0[0-2]")]
/-- its content -/
noncomputable def SC : List Node :=
  [.s6,
   .elem n.availableFormats []
    [.s8,
     .elem n.numberFormat [(n.pattern, str% "(\\d)(\\d{3})(\\d{3})")]
      [.s10,
       .leaf n.leadingDigits (str% "\n            [246]|\n            9[57]\n          "), .s10,
       .leaf n.format (str% "$1 $2 $3"), .s8], .s6], .s6,
   .elem n.generalDesc []
    [.s8,
     .leaf n.nationalNumberPattern (str% "\n          (?:\n            [2489]\\d|\n            64\n          )\\d{5}\n        "), .s6], .s6, .comment, .s6,
   .elem n.fixedLine []
    [.s8,
     .empty n.possibleLengths [(n.national, str% "7")], .s8,
     .leaf n.exampleNumber (str% "4217123"), .s8,
     .leaf n.nationalNumberPattern (str% "4[2-46]\\d{5}"), .s6], .s6, .comment, .s6,
   .elem n.mobile []
    [.s8,
     .empty n.possibleLengths [(n.national, str% "7")], .s8,
     .leaf n.exampleNumber (str% "2510123"), .s8,
     .leaf n.nationalNumberPattern (str% "2[125-8]\\d{5}"), .s6], .s6,
   .elem n.tollFree []
    [.s8,
     .empty n.possibleLengths [(n.national, str% "7")], .s8,
     .leaf n.exampleNumber (str% "8000000"), .s8,
     .leaf n.nationalNumberPattern (str% "800[08]\\d{3}"), .s6], .s6,
   .elem n.premiumRate []
    [.s8,
     .empty n.possibleLengths [(n.national, str% "7")], .s8,
     .leaf n.exampleNumber (str% "8512345"), .s8,
     .leaf n.nationalNumberPattern (str% "85\\d{5}"), .s6], .s6, .comment, .s6,
   .elem n.voip []
    [.s8,
     .empty n.possibleLengths [(n.national, str% "7")], .s8,
     .leaf n.exampleNumber (str% "6412345"), .s8,
     .leaf n.nationalNumberPattern (str% "\n          971\\d{4}|\n          (?:\n            64|\n            95\n          )\\d{5}\n        "), .s6], .s4]

/-- the nodes of this module -/
noncomputable def chunk12 : List (List Node × List (Str × Str) × List Node) :=
  [(PK_before, PK_attrs, PK), (PL_before, PL_attrs, PL), (PM_before, PM_attrs, PM), (PR_before, PR_attrs, PR),
   (PS_before, PS_attrs, PS), (PT_before, PT_attrs, PT), (PW_before, PW_attrs, PW), (PY_before, PY_attrs, PY),
   (QA_before, QA_attrs, QA), (RE_before, RE_attrs, RE), (RO_before, RO_attrs, RO), (RS_before, RS_attrs, RS),
   (RU_before, RU_attrs, RU), (RW_before, RW_attrs, RW), (SA_before, SA_attrs, SA), (SB_before, SB_attrs, SB),
   (SC_before, SC_attrs, SC)]

end Phone.Data.X
