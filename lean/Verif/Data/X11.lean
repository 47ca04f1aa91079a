import Verif.Data.XNames
/-! Territories of `/repo/assets/PhoneNumberMetadata.xml` as trees. Generated by `tools/gen_xml.py`; do not edit. -/

set_option maxRecDepth 100000
namespace Phone.Data.X
open Phone.Xml

/-- what stands before this territory -/
noncomputable def NA_before : List Node :=
  [.l4, .comment, .s4, .comment, .s4]
/-- its attributes -/
noncomputable def NA_attrs : List (Str × Str) := [(n.id, str% "NA"), (n.countryCode, str% "264"), (n.internationalPrefix, str% "00"), (n.nationalPrefix, str% "0")]
/-- its content -/
noncomputable def NA : List Node :=
  [.s6,
   .elem n.availableFormats []
    [.s8,
     .elem n.numberFormat [(n.pattern, str% "(\\d{2})(\\d{3})(\\d{3})"), (n.nationalPrefixFormattingRule, str% "$NP$FG")]
      [.s10,
       .leaf n.leadingDigits (str% "88"), .s10,
       .leaf n.format (str% "$1 $2 $3"), .s8], .s8,
     .elem n.numberFormat [(n.pattern, str% "(\\d{2})(\\d{3})(\\d{3,4})"), (n.nationalPrefixFormattingRule, str% "$NP$FG")]
      [.s10,
       .leaf n.leadingDigits (str% "6"), .s10,
       .leaf n.format (str% "$1 $2 $3"), .s8], .s8,
     .elem n.numberFormat [(n.pattern, str% "(\\d{3})(\\d{3})(\\d{3})"), (n.nationalPrefixFormattingRule, str% "$NP$FG")]
      [.s10,
       .leaf n.leadingDigits (str% "87"), .s10,
       .leaf n.format (str% "$1 $2 $3"), .s8], .s8,
     .elem n.numberFormat [(n.pattern, str% "(\\d{2})(\\d{3})(\\d{4})"), (n.nationalPrefixFormattingRule, str% "$NP$FG")]
      [.s10,
       .leaf n.leadingDigits (str% "8"), .s10,
       .leaf n.format (str% "$1 $2 $3"), .s8], .s6], .s6,
   .elem n.generalDesc []
    [.s8,
     .leaf n.nationalNumberPattern (str% "[68]\\d{7,8}"), .s6], .s6, .comment, .s6,
   .elem n.fixedLine []
    [.s8,
     .empty n.possibleLengths [(n.national, str% "8,9")], .s8,
     .leaf n.exampleNumber (str% "61221234"), .s8,
     .leaf n.nationalNumberPattern (str% "\n          64426\\d{3}|\n          6(?:\n            1(?:\n              2[2-7]|\n              3[01378]|\n              4[0-4]\n            )|\n            254|\n            32[0237]|\n            4(?:\n              27|\n              41|\n              5[25]\n            )|\n            52[236-8]|\n            626|\n            7(?:\n              2[2-4]|\n              30\n            )\n          )\\d{4,5}|\n          6(?:\n            1(?:\n              (?:\n                0\\d|\n                2[0189]|\n                3[24-69]|\n                4[5-9]\n              )\\d|\n              17|\n              69|\n              7[014]\n            )|\n            2(?:\n              17|\n              5[0-36-8]|\n              69|\n              70\n            )|\n            3(?:\n              17|\n              2[14-689]|\n              34|\n              6[289]|\n              7[01]|\n              81\n            )|\n            4(?:\n              17|\n              2[0-2]|\n              4[06]|\n              5[0137]|\n              69|\n              7[01]\n            )|\n            5(?:\n              17|\n              2[0459]|\n              69|\n              7[01]\n            )|\n            6(?:\n              17|\n              25|\n              38|\n              42|\n              69|\n              7[01]\n            )|\n            7(?:\n              17|\n              2[569]|\n              3[13]|\n              6[89]|\n              7[01]\n            )\n          )\\d{4}\n        "), .s6], .s6, .comment, .s6,
   .elem n.mobile []
    [.s8,
     .empty n.possibleLengths [(n.national, str% "9")], .s8,
     .leaf n.exampleNumber (str% "811234567"), .s8,
     .leaf n.nationalNumberPattern (str% "\n          (?:\n            60|\n            8[1245]\n          )\\d{7}\n        "), .s6], .s6,
   .elem n.tollFree []
    [.s8,
     .empty n.possibleLengths [(n.national, str% "9")], .s8,
     .leaf n.exampleNumber (str% "800123456"), .s8,
     .leaf n.nationalNumberPattern (str% "80\\d{7}"), .s6], .s6,
   .elem n.premiumRate []
    [.s8,
     .empty n.possibleLengths [(n.national, str% "9")], .s8,
     .leaf n.exampleNumber (str% "870123456"), .s8,
     .leaf n.nationalNumberPattern (str% "8701\\d{5}"), .s6], .s6, .comment, .s6,
   .elem n.voip []
    [.s8,
     .empty n.possibleLengths [(n.national, str% "8,9")], .s8,
     .leaf n.exampleNumber (str% "88612345"), .s8,
     .leaf n.nationalNumberPattern (str% "\n          8(?:\n            3\\d\\d|\n            86\n          )\\d{5}\n        "), .s6], .s4]

/-- what stands before this territory -/
noncomputable def NC_before : List Node :=
  [.l4, .comment, .s4, .comment, .s4, .comment, .s4]
/-- its attributes -/
noncomputable def NC_attrs : List (Str × Str) := [(n.id, str% "NC"), (n.countryCode, str% "687"), (n.internationalPrefix, str% "00")]
/-- its content -/
noncomputable def NC : List Node :=
  [.s6,
   .elem n.availableFormats []
    [.s8, .comment, .s8,
     .elem n.numberFormat [(n.pattern, str% "(\\d{3})")]
      [.s10,
       .leaf n.leadingDigits (str% "5[6-8]"), .s10,
       .leaf n.format (str% "$1"), .s10,
       .leaf n.intlFormat (str% "NA"), .s8], .s8, .comment, .s8,
     .elem n.numberFormat [(n.pattern, str% "(\\d{2})(\\d{2})(\\d{2})")]
      [.s10,
       .leaf n.leadingDigits (str% "[02-57-9]"), .s10,
       .leaf n.format (str% "$1.$2.$3"), .s8], .s6], .s6,
   .elem n.generalDesc []
    [.s8,
     .leaf n.nationalNumberPattern (str% "\n          (?:\n            050|\n            [2-57-9]\\d\\d\n          )\\d{3}\n        "), .s6], .s6, .comment, .s6,
   .elem n.fixedLine []
    [.s8,
     .empty n.possibleLengths [(n.national, str% "6")], .s8,
     .leaf n.exampleNumber (str% "201234"), .s8,
     .leaf n.nationalNumberPattern (str% "\n          (?:\n            2[03-9]|\n            3[0-5]|\n            4[1-7]|\n            88\n          )\\d{4}\n        "), .s6], .s6,
   .elem n.mobile []
    [.s8,
     .empty n.possibleLengths [(n.national, str% "6")], .s8,
     .leaf n.exampleNumber (str% "751234"), .s8,
     .leaf n.nationalNumberPattern (str% "\n          (?:\n            [579]\\d|\n            8[0-79]\n          )\\d{4}\n        "), .s6], .s6, .comment, .s6,
   .elem n.tollFree []
    [.s8,
     .empty n.possibleLengths [(n.national, str% "6")], .s8,
     .leaf n.exampleNumber (str% "050012"), .s8,
     .leaf n.nationalNumberPattern (str% "050\\d{3}"), .s6], .s6, .comment, .s6, .comment, .s6,
   .elem n.premiumRate []
    [.s8,
     .empty n.possibleLengths [(n.national, str% "6")], .s8,
     .leaf n.exampleNumber (str% "366711"), .s8,
     .leaf n.nationalNumberPattern (str% "36\\d{4}"), .s6], .s4]

/-- what stands before this territory -/
noncomputable def NE_before : List Node :=
  [.l4, .comment, .s4, .comment, .s4]
/-- its attributes -/
noncomputable def NE_attrs : List (Str × Str) := [(n.id, str% "NE"), (n.countryCode, str% "227"), (n.internationalPrefix, str% "00")]
/-- its content -/
noncomputable def NE : List Node :=
  [.s6,
   .elem n.availableFormats []
    [.s8,
     .elem n.numberFormat [(n.pattern, str% "(\\d{2})(\\d{3})(\\d{3})")]
      [.s10,
       .leaf n.leadingDigits (str% "08"), .s10,
       .leaf n.format (str% "$1 $2 $3"), .s8], .s8,
     .elem n.numberFormat [(n.pattern, str% "(\\d{2})(\\d{2})(\\d{2})(\\d{2})")]
      [.s10,
       .leaf n.leadingDigits (str% "\n            [089]|\n            2[013]|\n            7[0467]\n          "), .s10,
       .leaf n.format (str% "$1 $2 $3 $4"), .s8], .s6], .s6,
   .elem n.generalDesc []
    [.s8,
     .leaf n.nationalNumberPattern (str% "[027-9]\\d{7}"), .s6], .s6, .comment, .s6,
   .elem n.fixedLine []
    [.s8,
     .empty n.possibleLengths [(n.national, str% "8")], .s8,
     .leaf n.exampleNumber (str% "20201234"), .s8,
     .leaf n.nationalNumberPattern (str% "\n          2(?:\n            0(?:\n              20|\n              3[1-8]|\n              4[13-5]|\n              5[14]|\n              6[14578]|\n              7[1-578]\n            )|\n            1(?:\n              4[145]|\n              5[14]|\n              6[14-68]|\n              7[169]|\n              88\n            )\n          )\\d{4}\n        "), .s6], .s6, .comment, .s6,
   .elem n.mobile []
    [.s8,
     .empty n.possibleLengths [(n.national, str% "8")], .s8,
     .leaf n.exampleNumber (str% "93123456"), .s8,
     .leaf n.nationalNumberPattern (str% "\n          (?:\n            23|\n            7[0467]|\n            [89]\\d\n          )\\d{6}\n        "), .s6], .s6,
   .elem n.tollFree []
    [.s8,
     .empty n.possibleLengths [(n.national, str% "8")], .s8,
     .leaf n.exampleNumber (str% "08123456"), .s8,
     .leaf n.nationalNumberPattern (str% "08\\d{6}"), .s6], .s6,
   .elem n.premiumRate []
    [.s8,
     .empty n.possibleLengths [(n.national, str% "8")], .s8,
     .leaf n.exampleNumber (str% "09123456"), .s8,
     .leaf n.nationalNumberPattern (str% "09\\d{6}"), .s6], .s4]

/-- what stands before this territory -/
noncomputable def NF_before : List Node :=
  [.l4, .comment, .s4, .comment, .s4, .comment, .s4]
/-- its attributes -/
noncomputable def NF_attrs : List (Str × Str) := [(n.id, str% "NF"), (n.countryCode, str% "672"), (n.internationalPrefix, str% "00"), (n.nationalPrefixForParsing, str% "([0-258]\\d{4})$"), (n.nationalPrefixTransformRule, str% "3$1")]
/-- its content -/
noncomputable def NF : List Node :=
  [.s6,
   .elem n.availableFormats []
    [.s8,
     .elem n.numberFormat [(n.pattern, str% "(\\d{2})(\\d{4})")]
      [.s10,
       .leaf n.leadingDigits (str% "1[0-3]"), .s10,
       .leaf n.format (str% "$1 $2"), .s8], .s8,
     .elem n.numberFormat [(n.pattern, str% "(\\d)(\\d{5})")]
      [.s10,
       .leaf n.leadingDigits (str% "[13]"), .s10,
       .leaf n.format (str% "$1 $2"), .s8], .s6], .s6,
   .elem n.generalDesc []
    [.s8,
     .leaf n.nationalNumberPattern (str% "[13]\\d{5}"), .s6], .s6, .comment, .s6,
   .elem n.fixedLine []
    [.s8,
     .empty n.possibleLengths [(n.national, str% "6"), (n.localOnly, str% "5")], .s8,
     .leaf n.exampleNumber (str% "106609"), .s8,
     .leaf n.nationalNumberPattern (str% "\n          (?:\n            1(?:\n              06|\n              17|\n              28|\n              39\n            )|\n            3[0-2]\\d\n          )\\d{3}\n        "), .s6], .s6, .comment, .s6,
   .elem n.mobile []
    [.s8,
     .empty n.possibleLengths [(n.national, str% "6"), (n.localOnly, str% "5")], .s8,
     .leaf n.exampleNumber (str% "381234"), .s8,
     .leaf n.nationalNumberPattern (str% "\n          (?:\n            14|\n            3[58]\n          )\\d{4}\n        "), .s6], .s4]

/-- what stands before this territory -/
noncomputable def NG_before : List Node :=
  [.l4, .comment, .s4, .comment, .s4, .comment, .s4]
/-- its attributes -/
noncomputable def NG_attrs : List (Str × Str) := [(n.id, str% "NG"), (n.countryCode, str% "234"), (n.internationalPrefix, str% "009"), (n.nationalPrefix, str% "0"), (n.mobileNumberPortableRegion, str% "true")]
/-- its content -/
noncomputable def NG : List Node :=
  [.s6,
   .elem n.availableFormats []
    [.s8,
     .elem n.numberFormat [(n.pattern, str% "(\\d{3})(\\d{3})(\\d{3,4})"), (n.nationalPrefixFormattingRule, str% "$NP$FG")]
      [.s10,
       .leaf n.leadingDigits (str% "[7-9]"), .s10,
       .leaf n.format (str% "$1 $2 $3"), .s8], .s8,
     .elem n.numberFormat [(n.pattern, str% "(\\d{3})(\\d{3})(\\d{4})"), (n.nationalPrefixFormattingRule, str% "$NP$FG")]
      [.s10,
       .leaf n.leadingDigits (str% "20[129]"), .s10,
       .leaf n.format (str% "$1 $2 $3"), .s8], .s8,
     .elem n.numberFormat [(n.pattern, str% "(\\d{4})(\\d{2})(\\d{4})"), (n.nationalPrefixFormattingRule, str% "$NP$FG")]
      [.s10,
       .leaf n.leadingDigits (str% "2"), .s10,
       .leaf n.format (str% "$1 $2 $3"), .s8], .s8, .comment, .s8,
     .elem n.numberFormat [(n.pattern, str% "(\\d{3})(\\d{4})(\\d{4,5})"), (n.nationalPrefixFormattingRule, str% "$NP$FG")]
      [.s10,
       .leaf n.leadingDigits (str% "[78]"), .s10,
       .leaf n.format (str% "$1 $2 $3"), .s8], .s8, .comment, .s8,
     .elem n.numberFormat [(n.pattern, str% "(\\d{3})(\\d{5})(\\d{5,6})"), (n.nationalPrefixFormattingRule, str% "$NP$FG")]
      [.s10,
       .leaf n.leadingDigits (str% "[78]"), .s10,
       .leaf n.format (str% "$1 $2 $3"), .s8], .s6], .s6,
   .elem n.generalDesc []
    [.s8,
     .leaf n.nationalNumberPattern (str% "\n          (?:\n            20|\n            9\\d\n          )\\d{8}|\n          [78]\\d{9,13}\n        "), .s6], .s6,
   .elem n.fixedLine []
    [.s8,
     .empty n.possibleLengths [(n.national, str% "10"), (n.localOnly, str% "6,7")], .s8,
     .leaf n.exampleNumber (str% "2033123456"), .s8,
     .leaf n.nationalNumberPattern (str% "\n          20(?:\n            [1259]\\d|\n            3[013-9]|\n            4[1-8]|\n            6[024-689]|\n            7[1-79]|\n            8[2-9]\n          )\\d{6}\n        "), .s6], .s6, .comment, .s6,
   .elem n.mobile []
    [.s8,
     .empty n.possibleLengths [(n.national, str% "10")], .s8,
     .leaf n.exampleNumber (str% "8021234567"), .s8,
     .leaf n.nationalNumberPattern (str% "\n          (?:\n            702[0-24-9]|\n            819[01]\n          )\\d{6}|\n          (?:\n            7(?:\n              0[13-9]|\n              [12]\\d\n            )|\n            8(?:\n              0[1-9]|\n              1[0-8]\n            )|\n            9(?:\n              0[1-9]|\n              1[1-6]\n            )\n          )\\d{7}\n        "), .s6], .s6, .comment, .s6,
   .elem n.tollFree []
    [.s8,
     .empty n.possibleLengths [(n.national, str% "[10-14]")], .s8,
     .leaf n.exampleNumber (str% "80017591759"), .s8,
     .leaf n.nationalNumberPattern (str% "800\\d{7,11}"), .s6], .s6,
   .elem n.uan []
    [.s8,
     .empty n.possibleLengths [(n.national, str% "[10-14]")], .s8,
     .leaf n.exampleNumber (str% "7001234567"), .s8,
     .leaf n.nationalNumberPattern (str% "700\\d{7,11}"), .s6], .s4]

/-- what stands before this territory -/
noncomputable def NI_before : List Node :=
  [.l4, .comment, .s4, .comment, .s4]
/-- its attributes -/
noncomputable def NI_attrs : List (Str × Str) := [(n.id, str% "NI"), (n.countryCode, str% "505"), (n.internationalPrefix, str% "00")]
/-- its content -/
noncomputable def NI : List Node :=
  [.s6,
   .elem n.availableFormats []
    [.s8,
     .elem n.numberFormat [(n.pattern, str% "(\\d{4})(\\d{4})")]
      [.s10,
       .leaf n.leadingDigits (str% "[125-8]"), .s10,
       .leaf n.format (str% "$1 $2"), .s8], .s6], .s6,
   .elem n.generalDesc []
    [.s8,
     .leaf n.nationalNumberPattern (str% "\n          (?:\n            1800|\n            [25-8]\\d{3}\n          )\\d{4}\n        "), .s6], .s6,
   .elem n.fixedLine []
    [.s8,
     .empty n.possibleLengths [(n.national, str% "8")], .s8,
     .leaf n.exampleNumber (str% "21234567"), .s8,
     .leaf n.nationalNumberPattern (str% "2\\d{7}"), .s6], .s6, .comment, .s6,
   .elem n.mobile []
    [.s8,
     .empty n.possibleLengths [(n.national, str% "8")], .s8,
     .leaf n.exampleNumber (str% "81234567"), .s8,
     .leaf n.nationalNumberPattern (str% "\n          (?:\n            5(?:\n              5[0-7]|\n              [78]\\d\n            )|\n            6(?:\n              20|\n              3[035]|\n              4[045]|\n              5[05]|\n              77|\n              8[1-9]|\n              9[059]\n            )|\n            (?:\n              7[5-8]|\n              8\\d\n            )\\d\n          )\\d{5}\n        "), .s6], .s6,
   .elem n.tollFree []
    [.s8,
     .empty n.possibleLengths [(n.national, str% "8")], .s8,
     .leaf n.exampleNumber (str% "18001234"), .s8,
     .leaf n.nationalNumberPattern (str% "1800\\d{4}"), .s6], .s4]

/-- what stands before this territory -/
noncomputable def NL_before : List Node :=
  [.l4, .comment, .s4, .comment, .s4, .comment, .s4]
/-- its attributes -/
noncomputable def NL_attrs : List (Str × Str) := [(n.id, str% "NL"), (n.countryCode, str% "31"), (n.internationalPrefix, str% "00"), (n.nationalPrefix, str% "0"), (n.mobileNumberPortableRegion, str% "true")]
/-- its content -/
noncomputable def NL : List Node :=
  [.s6,
   .elem n.availableFormats []
    [.s8, .comment, .s8,
     .elem n.numberFormat [(n.pattern, str% "(\\d{4})")]
      [.s10,
       .leaf n.leadingDigits (str% "\n            1[238]|\n            [34]\n          "), .s10,
       .leaf n.format (str% "$1"), .s10,
       .leaf n.intlFormat (str% "NA"), .s8], .s8, .comment, .s8,
     .elem n.numberFormat [(n.pattern, str% "(\\d{2})(\\d{3,4})")]
      [.s10,
       .leaf n.leadingDigits (str% "14"), .s10,
       .leaf n.format (str% "$1 $2"), .s10,
       .leaf n.intlFormat (str% "NA"), .s8], .s8, .comment, .s8,
     .elem n.numberFormat [(n.pattern, str% "(\\d{6})")]
      [.s10,
       .leaf n.leadingDigits (str% "1"), .s10,
       .leaf n.format (str% "$1"), .s10,
       .leaf n.intlFormat (str% "NA"), .s8], .s8, .comment, .s8,
     .elem n.numberFormat [(n.pattern, str% "(\\d{3})(\\d{4,7})"), (n.nationalPrefixFormattingRule, str% "$NP$FG")]
      [.s10,
       .leaf n.leadingDigits (str% "[89]0"), .s10,
       .leaf n.format (str% "$1 $2"), .s8], .s8,
     .elem n.numberFormat [(n.pattern, str% "(\\d{2})(\\d{7})"), (n.nationalPrefixFormattingRule, str% "$NP$FG")]
      [.s10,
       .leaf n.leadingDigits (str% "66"), .s10,
       .leaf n.format (str% "$1 $2"), .s8], .s8,
     .elem n.numberFormat [(n.pattern, str% "(\\d)(\\d{8})"), (n.nationalPrefixFormattingRule, str% "$NP$FG")]
      [.s10,
       .leaf n.leadingDigits (str% "6"), .s10,
       .leaf n.format (str% "$1 $2"), .s8], .s8,
     .elem n.numberFormat [(n.pattern, str% "(\\d{3})(\\d{3})(\\d{3})"), (n.nationalPrefixFormattingRule, str% "$NP$FG")]
      [.s10,
       .leaf n.leadingDigits (str% "\n            1[16-8]|\n            2[259]|\n            3[124]|\n            4[17-9]|\n            5[124679]\n          "), .s10,
       .leaf n.format (str% "$1 $2 $3"), .s8], .s8,
     .elem n.numberFormat [(n.pattern, str% "(\\d{2})(\\d{3})(\\d{4})"), (n.nationalPrefixFormattingRule, str% "$NP$FG")]
      [.s10,
       .leaf n.leadingDigits (str% "\n            [1-578]|\n            91\n          "), .s10,
       .leaf n.format (str% "$1 $2 $3"), .s8], .s8, .comment, .s8,
     .elem n.numberFormat [(n.pattern, str% "(\\d{3})(\\d{3})(\\d{5})"), (n.nationalPrefixFormattingRule, str% "$NP$FG")]
      [.s10,
       .leaf n.leadingDigits (str% "9"), .s10,
       .leaf n.format (str% "$1 $2 $3"), .s8], .s6], .s6,
   .elem n.generalDesc []
    [.s8,
     .leaf n.nationalNumberPattern (str% "\n          (?:\n            [124-7]\\d\\d|\n            3(?:\n              [02-9]\\d|\n              1[0-8]\n            )\n          )\\d{6}|\n          8\\d{6,9}|\n          9\\d{6,10}|\n          1\\d{4,5}\n        "), .s6], .s6,
   .elem n.noInternationalDialling []
    [.s8,
     .empty n.possibleLengths [(n.national, str% "5,6")], .s8,
     .leaf n.nationalNumberPattern (str% "\n          140(?:\n            1[035]|\n            2[0346]|\n            3[03568]|\n            4[0356]|\n            5[0358]|\n            8[458]\n          )|\n          140(?:\n            1[16-8]|\n            2[259]|\n            3[124]|\n            4[17-9]|\n            5[124679]|\n            7\n          )\\d\n        "), .s6], .s6,
   .elem n.fixedLine []
    [.s8,
     .empty n.possibleLengths [(n.national, str% "9")], .s8,
     .leaf n.exampleNumber (str% "101234567"), .s8,
     .leaf n.nationalNumberPattern (str% "\n          (?:\n            1(?:\n              [035]\\d|\n              1[13-578]|\n              6[124-8]|\n              7[24]|\n              8[0-467]\n            )|\n            2(?:\n              [0346]\\d|\n              2[2-46-9]|\n              5[125]|\n              9[479]\n            )|\n            3(?:\n              [03568]\\d|\n              1[3-8]|\n              2[01]|\n              4[1-8]\n            )|\n            4(?:\n              [0356]\\d|\n              1[1-368]|\n              7[58]|\n              8[15-8]|\n              9[23579]\n            )|\n            5(?:\n              [0358]\\d|\n              [19][1-9]|\n              2[1-57-9]|\n              4[13-8]|\n              6[126]|\n              7[0-3578]\n            )|\n            7\\d\\d\n          )\\d{6}\n        "), .s6], .s6, .comment, .s6,
   .elem n.mobile []
    [.s8,
     .empty n.possibleLengths [(n.national, str% "9,11")], .s8,
     .leaf n.exampleNumber (str% "612345678"), .s8,
     .leaf n.nationalNumberPattern (str% "\n          (?:\n            6[1-58]|\n            970\\d\n          )\\d{7}\n        "), .s6], .s6,
   .elem n.pager []
    [.s8,
     .empty n.possibleLengths [(n.national, str% "9")], .s8,
     .leaf n.exampleNumber (str% "662345678"), .s8,
     .leaf n.nationalNumberPattern (str% "66\\d{7}"), .s6], .s6,
   .elem n.tollFree []
    [.s8,
     .empty n.possibleLengths [(n.national, str% "[7-10]")], .s8,
     .leaf n.exampleNumber (str% "8001234"), .s8,
     .leaf n.nationalNumberPattern (str% "800\\d{4,7}"), .s6], .s6,
   .elem n.premiumRate []
    [.s8,
     .empty n.possibleLengths [(n.national, str% "[7-10]")], .s8,
     .leaf n.exampleNumber (str% "9061234"), .s8,
     .leaf n.nationalNumberPattern (str% "90[069]\\d{4,7}"), .s6], .s6,
   .elem n.voip []
    [.s8,
     .empty n.possibleLengths [(n.national, str% "9")], .s8,
     .leaf n.exampleNumber (str% "851234567"), .s8,
     .leaf n.nationalNumberPattern (str% "\n          (?:\n            85|\n            91\n          )\\d{7}\n        "), .s6], .s6, .comment, .s6,
   .elem n.uan []
    [.s8,
     .empty n.possibleLengths [(n.national, str% "5,6,9")], .s8,
     .leaf n.exampleNumber (str% "14020"), .s8,
     .leaf n.nationalNumberPattern (str% "\n          140(?:\n            1[035]|\n            2[0346]|\n            3[03568]|\n            4[0356]|\n            5[0358]|\n            8[458]\n          )|\n          (?:\n            140(?:\n              1[16-8]|\n              2[259]|\n              3[124]|\n              4[17-9]|\n              5[124679]|\n              7\n            )|\n            8[478]\\d{6}\n          )\\d\n        "), .s6], .s4]

/-- what stands before this territory -/
noncomputable def NO_before : List Node :=
  [.l4, .comment, .s4, .comment, .s4, .comment, .s4, .comment, .s4, .comment, .s4]
/-- its attributes -/
noncomputable def NO_attrs : List (Str × Str) := [(n.id, str% "NO"), (n.mainCountryForCode, str% "true"), (n.countryCode, str% "47"), (n.leadingDigits, str% "[02-689]|7[0-8]"), (n.internationalPrefix, str% "00"), (n.mobileNumberPortableRegion, str% "true")]
/-- its content -/
noncomputable def NO : List Node :=
  [.s6,
   .elem n.availableFormats []
    [.s8,
     .elem n.numberFormat [(n.pattern, str% "(\\d{3})(\\d{2})(\\d{3})")]
      [.s10,
       .leaf n.leadingDigits (str% "8"), .s10,
       .leaf n.format (str% "$1 $2 $3"), .s8], .s8,
     .elem n.numberFormat [(n.pattern, str% "(\\d{2})(\\d{2})(\\d{2})(\\d{2})")]
      [.s10,
       .leaf n.leadingDigits (str% "[2-79]"), .s10,
       .leaf n.format (str% "$1 $2 $3 $4"), .s8], .s6], .s6,
   .elem n.generalDesc []
    [.s8,
     .leaf n.nationalNumberPattern (str% "\n          (?:\n            0|\n            [2-9]\\d{3}\n          )\\d{4}\n        "), .s6], .s6, .comment, .s6,
   .elem n.fixedLine []
    [.s8,
     .empty n.possibleLengths [(n.national, str% "8")], .s8,
     .leaf n.exampleNumber (str% "21234567"), .s8,
     .leaf n.nationalNumberPattern (str% "\n          (?:\n            2[1-4]|\n            3[1-3578]|\n            5[1-35-7]|\n            6[1-46-9]|\n            7[0-8]\n          )\\d{6}\n        "), .s6], .s6, .comment, .s6,
   .elem n.mobile []
    [.s8,
     .empty n.possibleLengths [(n.national, str% "8")], .s8,
     .leaf n.exampleNumber (str% "40612345"), .s8,
     .leaf n.nationalNumberPattern (str% "[49]\\d{7}"), .s6], .s6,
   .elem n.tollFree []
    [.s8,
     .empty n.possibleLengths [(n.national, str% "8")], .s8,
     .leaf n.exampleNumber (str% "80012345"), .s8,
     .leaf n.nationalNumberPattern (str% "80[01]\\d{5}"), .s6], .s6,
   .elem n.premiumRate []
    [.s8,
     .empty n.possibleLengths [(n.national, str% "8")], .s8,
     .leaf n.exampleNumber (str% "82012345"), .s8,
     .leaf n.nationalNumberPattern (str% "82[09]\\d{5}"), .s6], .s6,
   .elem n.sharedCost []
    [.s8,
     .empty n.possibleLengths [(n.national, str% "8")], .s8,
     .leaf n.exampleNumber (str% "81021234"), .s8,
     .leaf n.nationalNumberPattern (str% "\n          810(?:\n            0[0-6]|\n            [2-8]\\d\n          )\\d{3}\n        "), .s6], .s6,
   .elem n.personalNumber []
    [.s8,
     .empty n.possibleLengths [(n.national, str% "8")], .s8,
     .leaf n.exampleNumber (str% "88012345"), .s8,
     .leaf n.nationalNumberPattern (str% "880\\d{5}"), .s6], .s6,
   .elem n.voip []
    [.s8,
     .empty n.possibleLengths [(n.national, str% "8")], .s8,
     .leaf n.exampleNumber (str% "85012345"), .s8,
     .leaf n.nationalNumberPattern (str% "85[0-5]\\d{5}"), .s6], .s6, .comment, .s6,
   .elem n.uan []
    [.s8,
     .empty n.possibleLengths [(n.national, str% "5,8")], .s8,
     .leaf n.exampleNumber (str% "02000"), .s8,
     .leaf n.nationalNumberPattern (str% "\n          (?:\n            0[235-9]|\n            81(?:\n              0(?:\n                0[7-9]|\n                1\\d\n              )|\n              5\\d\\d\n            )\n          )\\d{3}\n        "), .s6], .s6,
   .elem n.voicemail []
    [.s8,
     .empty n.possibleLengths [(n.national, str% "8")], .s8,
     .leaf n.exampleNumber (str% "81212345"), .s8,
     .leaf n.nationalNumberPattern (str% "81[23]\\d{5}"), .s6], .s4]

/-- what stands before this territory -/
noncomputable def NP_before : List Node :=
  [.l4, .comment, .s4, .comment, .s4, .comment, .s4, .comment, .s4]
/-- its attributes -/
noncomputable def NP_attrs : List (Str × Str) := [(n.id, str% "NP"), (n.countryCode, str% "977"), (n.internationalPrefix, str% "00"), (n.nationalPrefix, str% "0")]
/-- its content -/
noncomputable def NP : List Node :=
  [.s6,
   .elem n.availableFormats []
    [.s8, .comment, .s8,
     .elem n.numberFormat [(n.pattern, str% "(\\d)(\\d{7})"), (n.nationalPrefixFormattingRule, str% "$NP$FG")]
      [.s10,
       .leaf n.leadingDigits (str% "1[2-6]"), .s10,
       .leaf n.format (str% "$1-$2"), .s8], .s8,
     .elem n.numberFormat [(n.pattern, str% "(\\d{2})(\\d{6})"), (n.nationalPrefixFormattingRule, str% "$NP$FG")]
      [.s10,
       .leaf n.leadingDigits (str% "\n            1[01]|\n            [2-8]|\n            9(?:\n              [1-59]|\n              [67][2-6]\n            )\n          "), .s10,
       .leaf n.format (str% "$1-$2"), .s8], .s8,
     .elem n.numberFormat [(n.pattern, str% "(\\d{3})(\\d{7})")]
      [.s10,
       .leaf n.leadingDigits (str% "9"), .s10,
       .leaf n.format (str% "$1-$2"), .s8], .s8, .comment, .s8,
     .elem n.numberFormat [(n.pattern, str% "(\\d{4})(\\d{2})(\\d{5})")]
      [.s10,
       .leaf n.leadingDigits (str% "1"), .s10,
       .leaf n.format (str% "$1-$2-$3"), .s10,
       .leaf n.intlFormat (str% "NA"), .s8], .s6], .s6,
   .elem n.generalDesc []
    [.s8,
     .leaf n.nationalNumberPattern (str% "\n          (?:\n            1\\d|\n            9\n          )\\d{9}|\n          [1-9]\\d{7}\n        "), .s6], .s6, .comment, .s6,
   .elem n.fixedLine []
    [.s8,
     .empty n.possibleLengths [(n.national, str% "8"), (n.localOnly, str% "6,7")], .s8,
     .leaf n.exampleNumber (str% "14567890"), .s8,
     .leaf n.nationalNumberPattern (str% "\n          (?:\n            1[0-6]\\d|\n            99[02-6]\n          )\\d{5}|\n          (?:\n            2[13-79]|\n            3[135-8]|\n            4[146-9]|\n            5[135-7]|\n            6[13-9]|\n            7[15-9]|\n            8[1-46-9]|\n            9[1-7]\n          )[2-6]\\d{5}\n        "), .s6], .s6, .comment, .s6,
   .elem n.mobile []
    [.s8,
     .empty n.possibleLengths [(n.national, str% "10")], .s8,
     .leaf n.exampleNumber (str% "9841234567"), .s8,
     .leaf n.nationalNumberPattern (str% "\n          9(?:\n            00|\n            6[0-3]|\n            7[0-24-6]|\n            8[0-24-68]\n          )\\d{7}\n        "), .s6], .s6, .comment, .s6,
   .elem n.tollFree []
    [.s8,
     .empty n.possibleLengths [(n.national, str% "11")], .s8,
     .leaf n.exampleNumber (str% "16600101234"), .s8,
     .leaf n.nationalNumberPattern (str% "\n          1(?:\n            66001|\n            800\\d\\d\n          )\\d{5}\n        "), .s6], .s4]

/-- what stands before this territory -/
noncomputable def NR_before : List Node :=
  [.l4, .comment, .s4, .comment, .s4, .comment, .s4]
/-- its attributes -/
noncomputable def NR_attrs : List (Str × Str) := [(n.id, str% "NR"), (n.countryCode, str% "674"), (n.internationalPrefix, str% "00")]
/-- its content -/
noncomputable def NR : List Node :=
  [.s6,
   .elem n.availableFormats []
    [.s8,
     .elem n.numberFormat [(n.pattern, str% "(\\d{3})(\\d{4})")]
      [.s10,
       .leaf n.leadingDigits (str% "[24-9]"), .s10,
       .leaf n.format (str% "$1 $2"), .s8], .s6], .s6,
   .elem n.generalDesc []
    [.s8,
     .leaf n.nationalNumberPattern (str% "\n          (?:\n            222|\n            444|\n            (?:\n              55|\n              8\\d\n            )\\d|\n            666|\n            777|\n            999\n          )\\d{4}\n        "), .s6], .s6,
   .elem n.fixedLine []
    [.s8,
     .empty n.possibleLengths [(n.national, str% "7")], .s8,
     .leaf n.exampleNumber (str% "4441234"), .s8,
     .leaf n.nationalNumberPattern (str% "444\\d{4}"), .s6], .s6,
   .elem n.mobile []
    [.s8,
     .empty n.possibleLengths [(n.national, str% "7")], .s8,
     .leaf n.exampleNumber (str% "5551234"), .s8,
     .leaf n.nationalNumberPattern (str% "\n          (?:\n            222|\n            55[3-9]|\n            666|\n            777|\n            8\\d\\d|\n            999\n          )\\d{4}\n        "), .s6], .s4]

/-- what stands before this territory -/
noncomputable def NU_before : List Node :=
  [.l4, .comment, .s4, .comment, .s4, .comment, .s4]
/-- its attributes -/
noncomputable def NU_attrs : List (Str × Str) := [(n.id, str% "NU"), (n.countryCode, str% "683"), (n.internationalPrefix, str% "00")]
/-- its content -/
noncomputable def NU : List Node :=
  [.s6,
   .elem n.availableFormats []
    [.s8,
     .elem n.numberFormat [(n.pattern, str% "(\\d{3})(\\d{4})")]
      [.s10,
       .leaf n.leadingDigits (str% "8"), .s10,
       .leaf n.format (str% "$1 $2"), .s8], .s6], .s6,
   .elem n.generalDesc []
    [.s8,
     .leaf n.nationalNumberPattern (str% "\n          (?:\n            [4-7]|\n            888\\d\n          )\\d{3}\n        "), .s6], .s6,
   .elem n.fixedLine []
    [.s8,
     .empty n.possibleLengths [(n.national, str% "4")], .s8,
     .leaf n.exampleNumber (str% "7012"), .s8,
     .leaf n.nationalNumberPattern (str% "[47]\\d{3}"), .s6], .s6,
   .elem n.mobile []
    [.s8,
     .empty n.possibleLengths [(n.national, str% "4,7")], .s8,
     .leaf n.exampleNumber (str% "8884012"), .s8,
     .leaf n.nationalNumberPattern (str% "\n          (?:\n            [56]|\n            888[1-9]\n          )\\d{3}\n        "), .s6], .s4]

/-- what stands before this territory -/
noncomputable def NZ_before : List Node :=
  [.l4, .comment, .s4, .comment, .s4, .comment, .s4, .comment, .s4]
/-- its attributes -/
noncomputable def NZ_attrs : List (Str × Str) := [(n.id, str% "NZ"), (n.countryCode, str% "64"), (n.preferredInternationalPrefix, str% "00"), (n.internationalPrefix, str% "0(?:0|161)"), (n.nationalPrefix, str% "0"), (n.mobileNumberPortableRegion, str% "true")]
/-- its content -/
noncomputable def NZ : List Node :=
  [.s6,
   .elem n.availableFormats []
    [.s8, .comment, .s8,
     .elem n.numberFormat [(n.pattern, str% "(\\d{2})(\\d{3,8})"), (n.nationalPrefixFormattingRule, str% "$NP$FG")]
      [.s10,
       .leaf n.leadingDigits (str% "8[1-79]"), .s10,
       .leaf n.format (str% "$1 $2"), .s8], .s8, .comment, .s8,
     .elem n.numberFormat [(n.pattern, str% "(\\d{3})(\\d{2})(\\d{2,3})"), (n.nationalPrefixFormattingRule, str% "$NP$FG")]
      [.s10,
       .leaf n.leadingDigits (str% "\n            50[036-8]|\n            8|\n            90\n          "), .s10,
       .leaf n.leadingDigits (str% "\n            50(?:\n              [0367]|\n              88\n            )|\n            8|\n            90\n          "), .s10,
       .leaf n.format (str% "$1 $2 $3"), .s8], .s8, .comment, .s8,
     .elem n.numberFormat [(n.pattern, str% "(\\d)(\\d{3})(\\d{4})"), (n.nationalPrefixFormattingRule, str% "$NP$FG")]
      [.s10,
       .leaf n.leadingDigits (str% "\n            24|\n            [346]|\n            7[2-57-9]|\n            9[2-9]\n          "), .s10,
       .leaf n.format (str% "$1 $2 $3"), .s8], .s8, .comment, .s8,
     .elem n.numberFormat [(n.pattern, str% "(\\d{3})(\\d{3})(\\d{3,4})"), (n.nationalPrefixFormattingRule, str% "$NP$FG")]
      [.s10,
       .leaf n.leadingDigits (str% "\n            2(?:\n              10|\n              74\n            )|\n            [589]\n          "), .s10,
       .leaf n.format (str% "$1 $2 $3"), .s8], .s8, .comment, .s8,
     .elem n.numberFormat [(n.pattern, str% "(\\d{2})(\\d{3,4})(\\d{4})"), (n.nationalPrefixFormattingRule, str% "$NP$FG")]
      [.s10,
       .leaf n.leadingDigits (str% "\n            1|\n            2[028]\n          "), .s10,
       .leaf n.format (str% "$1 $2 $3"), .s8], .s8, .comment, .s8,
     .elem n.numberFormat [(n.pattern, str% "(\\d{2})(\\d{3})(\\d{3,5})"), (n.nationalPrefixFormattingRule, str% "$NP$FG")]
      [.s10,
       .leaf n.leadingDigits (str% "\n            2(?:\n              [169]|\n              7[0-35-9]\n            )|\n            7\n          "), .s10,
       .leaf n.format (str% "$1 $2 $3"), .s8], .s6], .s6,
   .elem n.generalDesc []
    [.s8,
     .leaf n.nationalNumberPattern (str% "\n          [1289]\\d{9}|\n          50\\d{5}(?:\n            \\d{2,3}\n          )?|\n          [27-9]\\d{7,8}|\n          (?:\n            [34]\\d|\n            6[0-35-9]\n          )\\d{6}|\n          8\\d{4,6}\n        "), .s6], .s6,
   .elem n.fixedLine []
    [.s8,
     .empty n.possibleLengths [(n.national, str% "8"), (n.localOnly, str% "7")], .s8,
     .leaf n.exampleNumber (str% "32345678"), .s8,
     .leaf n.nationalNumberPattern (str% "\n          240\\d{5}|\n          (?:\n            3[2-79]|\n            [49][2-9]|\n            6[235-9]|\n            7[2-57-9]\n          )\\d{6}\n        "), .s6], .s6, .comment, .s6,
   .elem n.mobile []
    [.s8,
     .empty n.possibleLengths [(n.national, str% "[8-10]")], .s8,
     .leaf n.exampleNumber (str% "211234567"), .s8,
     .leaf n.nationalNumberPattern (str% "\n          2(?:\n            [0-27-9]\\d|\n            6\n          )\\d{6,7}|\n          2(?:\n            1\\d|\n            75\n          )\\d{5}\n        "), .s6], .s6, .comment, .s6,
   .elem n.tollFree []
    [.s8,
     .empty n.possibleLengths [(n.national, str% "[8-10]")], .s8,
     .leaf n.exampleNumber (str% "800123456"), .s8,
     .leaf n.nationalNumberPattern (str% "\n          508\\d{6,7}|\n          80\\d{6,8}\n        "), .s6], .s6, .comment, .s6,
   .elem n.premiumRate []
    [.s8,
     .empty n.possibleLengths [(n.national, str% "[7-10]")], .s8,
     .leaf n.exampleNumber (str% "900123456"), .s8,
     .leaf n.nationalNumberPattern (str% "\n          (?:\n            1[13-57-9]\\d{5}|\n            50(?:\n              0[08]|\n              30|\n              66|\n              77|\n              88\n            )\n          )\\d{3}|\n          90\\d{6,8}\n        "), .s6], .s6,
   .elem n.personalNumber []
    [.s8,
     .empty n.possibleLengths [(n.national, str% "9")], .s8,
     .leaf n.exampleNumber (str% "701234567"), .s8,
     .leaf n.nationalNumberPattern (str% "70\\d{7}"), .s6], .s6,
   .elem n.uan []
    [.s8,
     .empty n.possibleLengths [(n.national, str% "[5-10]")], .s8,
     .leaf n.exampleNumber (str% "83012378"), .s8,
     .leaf n.nationalNumberPattern (str% "\n          8(?:\n            1[16-9]|\n            22|\n            3\\d|\n            4[045]|\n            5[459]|\n            6[235-9]|\n            7[0-3579]|\n            90\n          )\\d{2,7}\n        "), .s6], .s4]

/-- what stands before this territory -/
noncomputable def OM_before : List Node :=
  [.l4, .comment, .s4, .comment, .s4]
/-- its attributes -/
noncomputable def OM_attrs : List (Str × Str) := [(n.id, str% "OM"), (n.countryCode, str% "968"), (n.internationalPrefix, str% "00"), (n.mobileNumberPortableRegion, str% "true")]
/-- its content -/
noncomputable def OM : List Node :=
  [.s6,
   .elem n.availableFormats []
    [.s8,
     .elem n.numberFormat [(n.pattern, str% "(\\d{3})(\\d{4,6})")]
      [.s10,
       .leaf n.leadingDigits (str% "[58]"), .s10,
       .leaf n.format (str% "$1 $2"), .s8], .s8,
     .elem n.numberFormat [(n.pattern, str% "(\\d{2})(\\d{6})")]
      [.s10,
       .leaf n.leadingDigits (str% "2"), .s10,
       .leaf n.format (str% "$1 $2"), .s8], .s8,
     .elem n.numberFormat [(n.pattern, str% "(\\d{4})(\\d{4})")]
      [.s10,
       .leaf n.leadingDigits (str% "[179]"), .s10,
       .leaf n.format (str% "$1 $2"), .s8], .s6], .s6,
   .elem n.generalDesc []
    [.s8,
     .leaf n.nationalNumberPattern (str% "\n          (?:\n            1505|\n            [279]\\d{3}|\n            500\n          )\\d{4}|\n          800\\d{5,6}\n        "), .s6], .s6,
   .elem n.fixedLine []
    [.s8,
     .empty n.possibleLengths [(n.national, str% "8")], .s8,
     .leaf n.exampleNumber (str% "23123456"), .s8,
     .leaf n.nationalNumberPattern (str% "2[1-6]\\d{6}"), .s6], .s6,
   .elem n.mobile []
    [.s8,
     .empty n.possibleLengths [(n.national, str% "8")], .s8,
     .leaf n.exampleNumber (str% "92123456"), .s8,
     .leaf n.nationalNumberPattern (str% "\n          (?:\n            1505|\n            90[1-9]\\d\n          )\\d{4}|\n          (?:\n            7[124-9]|\n            9[1-9]\n          )\\d{6}\n        "), .s6], .s6, .comment, .s6,
   .elem n.tollFree []
    [.s8,
     .empty n.possibleLengths [(n.national, str% "[7-9]")], .s8,
     .leaf n.exampleNumber (str% "80071234"), .s8,
     .leaf n.nationalNumberPattern (str% "\n          8007\\d{4,5}|\n          (?:\n            500|\n            800[05]\n          )\\d{4}\n        "), .s6], .s6,
   .elem n.premiumRate []
    [.s8,
     .empty n.possibleLengths [(n.national, str% "8")], .s8,
     .leaf n.exampleNumber (str% "90012345"), .s8,
     .leaf n.nationalNumberPattern (str% "900\\d{5}"), .s6], .s4]

/-- what stands before this territory -/
noncomputable def PA_before : List Node :=
  [.l4, .comment, .s4, .comment, .s4, .comment, .s4, .comment, .s4, .comment, .s4]
/-- its attributes -/
noncomputable def PA_attrs : List (Str × Str) := [(n.id, str% "PA"), (n.countryCode, str% "507"), (n.internationalPrefix, str% "00"), (n.mobileNumberPortableRegion, str% "true")]
/-- its content -/
noncomputable def PA : List Node :=
  [.s6,
   .elem n.availableFormats []
    [.s8,
     .elem n.numberFormat [(n.pattern, str% "(\\d{3})(\\d{4})")]
      [.s10,
       .leaf n.leadingDigits (str% "[1-57-9]"), .s10,
       .leaf n.format (str% "$1-$2"), .s8], .s8,
     .elem n.numberFormat [(n.pattern, str% "(\\d{4})(\\d{4})")]
      [.s10,
       .leaf n.leadingDigits (str% "[68]"), .s10,
       .leaf n.format (str% "$1-$2"), .s8], .s8,
     .elem n.numberFormat [(n.pattern, str% "(\\d{3})(\\d{3})(\\d{4})")]
      [.s10,
       .leaf n.leadingDigits (str% "8"), .s10,
       .leaf n.format (str% "$1 $2 $3"), .s8], .s6], .s6,
   .elem n.generalDesc []
    [.s8,
     .leaf n.nationalNumberPattern (str% "\n          (?:\n            00800|\n            8\\d{3}\n          )\\d{6}|\n          [68]\\d{7}|\n          [1-57-9]\\d{6}\n        "), .s6], .s6, .comment, .s6, .comment, .s6, .comment, .s6,
   .elem n.fixedLine []
    [.s8,
     .empty n.possibleLengths [(n.national, str% "7")], .s8,
     .leaf n.exampleNumber (str% "2001234"), .s8,
     .leaf n.nationalNumberPattern (str% "\n          (?:\n            1(?:\n              0\\d|\n              1[0479]|\n              2[37]|\n              3[0137]|\n              4[147]|\n              5[05]|\n              6[058]|\n              7[0167]|\n              8[2358]|\n              9[1389]\n            )|\n            2(?:\n              [0235-79]\\d|\n              1[0-7]|\n              4[013-9]|\n              8[02-9]\n            )|\n            3(?:\n              [0147-9]\\d|\n              [25][0-5]|\n              33|\n              6[068]\n            )|\n            4(?:\n              00|\n              3[0-579]|\n              4\\d|\n              7[0-57-9]\n            )|\n            5(?:\n              [01]\\d|\n              2[0-7]|\n              [56]0|\n              79\n            )|\n            7(?:\n              0[09]|\n              2[0-26-8]|\n              3[03]|\n              4[04]|\n              5[05-9]|\n              6[0156]|\n              7[0-24-9]|\n              8[4-9]|\n              90\n            )|\n            8(?:\n              09|\n              2[89]|\n              3\\d|\n              4[0-24-689]|\n              5[014]|\n              8[02]\n            )|\n            9(?:\n              0[5-9]|\n              1[0135-8]|\n              2[036-9]|\n              3[35-79]|\n              40|\n              5[0457-9]|\n              6[05-9]|\n              7[04-9]|\n              8[35-8]|\n              9\\d\n            )\n          )\\d{4}\n        "), .s6], .s6, .comment, .s6,
   .elem n.mobile []
    [.s8,
     .empty n.possibleLengths [(n.national, str% "7,8")], .s8,
     .leaf n.exampleNumber (str% "61234567"), .s8,
     .leaf n.nationalNumberPattern (str% "\n          (?:\n            1[16]1|\n            21[89]|\n            6\\d{3}|\n            8(?:\n              1[01]|\n              7[23]\n            )\n          )\\d{4}\n        "), .s6], .s6, .comment, .s6,
   .elem n.tollFree []
    [.s8,
     .empty n.possibleLengths [(n.national, str% "7,8,10,11")], .s8,
     .leaf n.exampleNumber (str% "8001234"), .s8,
     .leaf n.nationalNumberPattern (str% "\n          800\\d{4,5}|\n          (?:\n            00800|\n            800\\d\n          )\\d{6}\n        "), .s6], .s6, .comment, .s6,
   .elem n.premiumRate []
    [.s8,
     .empty n.possibleLengths [(n.national, str% "7")], .s8,
     .leaf n.exampleNumber (str% "8601234"), .s8,
     .leaf n.nationalNumberPattern (str% "\n          (?:\n            8(?:\n              22|\n              55|\n              60|\n              7[78]|\n              86\n            )|\n            9(?:\n              00|\n              81\n            )\n          )\\d{4}\n        "), .s6], .s4]

/-- what stands before this territory -/
noncomputable def PE_before : List Node :=
  [.l4, .comment, .s4, .comment, .s4, .comment, .s4, .comment, .s4]
/-- its attributes -/
noncomputable def PE_attrs : List (Str × Str) := [(n.id, str% "PE"), (n.countryCode, str% "51"), (n.preferredInternationalPrefix, str% "00"), (n.internationalPrefix, str% "00|19(?:1[124]|77|90)00"), (n.nationalPrefix, str% "0"), (n.preferredExtnPrefix, str% " Anexo "), (n.mobileNumberPortableRegion, str% "true")]
/-- its content -/
noncomputable def PE : List Node :=
  [.s6,
   .elem n.availableFormats []
    [.s8,
     .elem n.numberFormat [(n.pattern, str% "(\\d{3})(\\d{5})"), (n.nationalPrefixFormattingRule, str% "($NP$FG)")]
      [.s10,
       .leaf n.leadingDigits (str% "80"), .s10,
       .leaf n.format (str% "$1 $2"), .s8], .s8,
     .elem n.numberFormat [(n.pattern, str% "(\\d)(\\d{7})"), (n.nationalPrefixFormattingRule, str% "($NP$FG)")]
      [.s10,
       .leaf n.leadingDigits (str% "1"), .s10,
       .leaf n.format (str% "$1 $2"), .s8], .s8,
     .elem n.numberFormat [(n.pattern, str% "(\\d{2})(\\d{6})"), (n.nationalPrefixFormattingRule, str% "($NP$FG)")]
      [.s10,
       .leaf n.leadingDigits (str% "[4-8]"), .s10,
       .leaf n.format (str% "$1 $2"), .s8], .s8, .comment, .s8,
     .elem n.numberFormat [(n.pattern, str% "(\\d{3})(\\d{3})(\\d{3})")]
      [.s10,
       .leaf n.leadingDigits (str% "9"), .s10,
       .leaf n.format (str% "$1 $2 $3"), .s8], .s6], .s6,
   .elem n.generalDesc []
    [.s8,
     .leaf n.nationalNumberPattern (str% "\n          (?:\n            [14-8]|\n            9\\d\n          )\\d{7}\n        "), .s6], .s6, .comment, .s6,
   .elem n.fixedLine []
    [.s8,
     .empty n.possibleLengths [(n.national, str% "8"), (n.localOnly, str% "6,7")], .s8,
     .leaf n.exampleNumber (str% "11234567"), .s8,
     .leaf n.nationalNumberPattern (str% "\n          (?:\n            (?:\n              (?:\n                4[34]|\n                5[14]\n              )[0-8]|\n              687\n            )\\d|\n            7(?:\n              173|\n              (?:\n                3[0-8]|\n                55\n              )\\d\n            )|\n            8(?:\n              10[05689]|\n              6(?:\n                0[06-9]|\n                1[6-9]|\n                29\n              )|\n              7(?:\n                0[0569]|\n                [56]0\n              )\n            )\n          )\\d{4}|\n          (?:\n            1[0-8]|\n            4[12]|\n            5[236]|\n            6[1-7]|\n            7[246]|\n            8[2-4]\n          )\\d{6}\n        "), .s6], .s6,
   .elem n.mobile []
    [.s8,
     .empty n.possibleLengths [(n.national, str% "9")], .s8,
     .leaf n.exampleNumber (str% "912345678"), .s8,
     .leaf n.nationalNumberPattern (str% "9\\d{8}"), .s6], .s6,
   .elem n.tollFree []
    [.s8,
     .empty n.possibleLengths [(n.national, str% "8")], .s8,
     .leaf n.exampleNumber (str% "80012345"), .s8,
     .leaf n.nationalNumberPattern (str% "800\\d{5}"), .s6], .s6,
   .elem n.premiumRate []
    [.s8,
     .empty n.possibleLengths [(n.national, str% "8")], .s8,
     .leaf n.exampleNumber (str% "80512345"), .s8,
     .leaf n.nationalNumberPattern (str% "805\\d{5}"), .s6], .s6,
   .elem n.sharedCost []
    [.s8,
     .empty n.possibleLengths [(n.national, str% "8")], .s8,
     .leaf n.exampleNumber (str% "80112345"), .s8,
     .leaf n.nationalNumberPattern (str% "801\\d{5}"), .s6], .s6,
   .elem n.personalNumber []
    [.s8,
     .empty n.possibleLengths [(n.national, str% "8")], .s8,
     .leaf n.exampleNumber (str% "80212345"), .s8,
     .leaf n.nationalNumberPattern (str% "80[24]\\d{5}"), .s6], .s4]

/-- what stands before this territory -/
noncomputable def PF_before : List Node :=
  [.l4, .comment, .s4, .comment, .s4]
/-- its attributes -/
noncomputable def PF_attrs : List (Str × Str) := [(n.id, str% "PF"), (n.countryCode, str% "689"), (n.internationalPrefix, str% "00")]
/-- its content -/
noncomputable def PF : List Node :=
  [.s6,
   .elem n.availableFormats []
    [.s8,
     .elem n.numberFormat [(n.pattern, str% "(\\d{2})(\\d{2})(\\d{2})")]
      [.s10,
       .leaf n.leadingDigits (str% "44"), .s10,
       .leaf n.format (str% "$1 $2 $3"), .s8], .s8,
     .elem n.numberFormat [(n.pattern, str% "(\\d{2})(\\d{2})(\\d{2})(\\d{2})")]
      [.s10,
       .leaf n.leadingDigits (str% "\n            4|\n            8[7-9]\n          "), .s10,
       .leaf n.format (str% "$1 $2 $3 $4"), .s8], .s8,
     .elem n.numberFormat [(n.pattern, str% "(\\d{3})(\\d{2})(\\d{2})(\\d{2})")]
      [.s10,
       .leaf n.leadingDigits (str% "8"), .s10,
       .leaf n.format (str% "$1 $2 $3 $4"), .s8], .s6], .s6,
   .elem n.generalDesc []
    [.s8,
     .leaf n.nationalNumberPattern (str% "\n          4\\d{5}(?:\n            \\d{2}\n          )?|\n          8\\d{7,8}\n        "), .s6], .s6,
   .elem n.noInternationalDialling []
    [.s8,
     .empty n.possibleLengths [(n.national, str% "6")], .s8,
     .leaf n.nationalNumberPattern (str% "44\\d{4}"), .s6], .s6, .comment, .s6,
   .elem n.fixedLine []
    [.s8,
     .empty n.possibleLengths [(n.national, str% "8")], .s8,
     .leaf n.exampleNumber (str% "40412345"), .s8,
     .leaf n.nationalNumberPattern (str% "\n          4(?:\n            0[4-689]|\n            9[4-68]\n          )\\d{5}\n        "), .s6], .s6,
   .elem n.mobile []
    [.s8,
     .empty n.possibleLengths [(n.national, str% "8")], .s8,
     .leaf n.exampleNumber (str% "87123456"), .s8,
     .leaf n.nationalNumberPattern (str% "8[7-9]\\d{6}"), .s6], .s6, .comment, .s6,
   .elem n.tollFree []
    [.s8,
     .empty n.possibleLengths [(n.national, str% "9")], .s8,
     .leaf n.exampleNumber (str% "800012345"), .s8,
     .leaf n.nationalNumberPattern (str% "80[0-5]\\d{6}"), .s6], .s6,
   .elem n.voip []
    [.s8,
     .empty n.possibleLengths [(n.national, str% "8")], .s8,
     .leaf n.exampleNumber (str% "49901234"), .s8,
     .leaf n.nationalNumberPattern (str% "499\\d{5}"), .s6], .s6,
   .elem n.uan []
    [.s8,
     .empty n.possibleLengths [(n.national, str% "6")], .s8,
     .leaf n.exampleNumber (str% "440123"), .s8,
     .leaf n.nationalNumberPattern (str% "44\\d{4}"), .s6], .s4]

/-- what stands before this territory -/
noncomputable def PG_before : List Node :=
  [.l4, .comment, .s4, .comment, .s4, .comment, .s4, .comment, .s4]
/-- its attributes -/
noncomputable def PG_attrs : List (Str × Str) := [(n.id, str% "PG"), (n.countryCode, str% "675"), (n.preferredInternationalPrefix, str% "00"), (n.internationalPrefix, str% "00|140[1-3]")]
/-- its content -/
noncomputable def PG : List Node :=
  [.s6,
   .elem n.availableFormats []
    [.s8,
     .elem n.numberFormat [(n.pattern, str% "(\\d{3})(\\d{4})")]
      [.s10,
       .leaf n.leadingDigits (str% "\n            18|\n            [2-69]|\n            85\n          "), .s10,
       .leaf n.format (str% "$1 $2"), .s8], .s8,
     .elem n.numberFormat [(n.pattern, str% "(\\d{4})(\\d{4})")]
      [.s10,
       .leaf n.leadingDigits (str% "[78]"), .s10,
       .leaf n.format (str% "$1 $2"), .s8], .s6], .s6,
   .elem n.generalDesc []
    [.s8,
     .leaf n.nationalNumberPattern (str% "\n          (?:\n            180|\n            [78]\\d{3}\n          )\\d{4}|\n          (?:\n            [2-589]\\d|\n            64\n          )\\d{5}\n        "), .s6], .s6,
   .elem n.fixedLine []
    [.s8,
     .empty n.possibleLengths [(n.national, str% "7")], .s8,
     .leaf n.exampleNumber (str% "3123456"), .s8,
     .leaf n.nationalNumberPattern (str% "\n          (?:\n            (?:\n              3[0-2]|\n              4[257]|\n              5[34]|\n              9[78]\n            )\\d|\n            64[1-9]|\n            85[02-46-9]\n          )\\d{4}\n        "), .s6], .s6,
   .elem n.mobile []
    [.s8,
     .empty n.possibleLengths [(n.national, str% "8")], .s8,
     .leaf n.exampleNumber (str% "70123456"), .s8,
     .leaf n.nationalNumberPattern (str% "\n          (?:\n            7\\d|\n            8[1-48]\n          )\\d{6}\n        "), .s6], .s6,
   .elem n.pager []
    [.s8,
     .empty n.possibleLengths [(n.national, str% "7")], .s8,
     .leaf n.exampleNumber (str% "2700123"), .s8,
     .leaf n.nationalNumberPattern (str% "27[01]\\d{4}"), .s6], .s6,
   .elem n.tollFree []
    [.s8,
     .empty n.possibleLengths [(n.national, str% "7")], .s8,
     .leaf n.exampleNumber (str% "1801234"), .s8,
     .leaf n.nationalNumberPattern (str% "180\\d{4}"), .s6], .s6, .comment, .s6,
   .elem n.voip []
    [.s8,
     .empty n.possibleLengths [(n.national, str% "7")], .s8,
     .leaf n.exampleNumber (str% "2751234"), .s8,
     .leaf n.nationalNumberPattern (str% "\n          2(?:\n            0[0-57]|\n            7[568]\n          )\\d{4}\n        "), .s6], .s4]

/-- what stands before this territory -/
noncomputable def PH_before : List Node :=
  [.l4, .comment, .s4, .comment, .s4]
/-- its attributes -/
noncomputable def PH_attrs : List (Str × Str) := [(n.id, str% "PH"), (n.countryCode, str% "63"), (n.internationalPrefix, str% "00"), (n.nationalPrefix, str% "0")]
/-- its content -/
noncomputable def PH : List Node :=
  [.s6,
   .elem n.availableFormats []
    [.s8,
     .elem n.numberFormat [(n.pattern, str% "(\\d)(\\d{5})"), (n.nationalPrefixFormattingRule, str% "($NP$FG)")]
      [.s10,
       .leaf n.leadingDigits (str% "2"), .s10,
       .leaf n.format (str% "$1 $2"), .s8], .s8,
     .elem n.numberFormat [(n.pattern, str% "(\\d{4})(\\d{4,6})"), (n.nationalPrefixFormattingRule, str% "($NP$FG)")]
      [.s10,
       .leaf n.leadingDigits (str% "\n            3(?:\n              23|\n              39|\n              46\n            )|\n            4(?:\n              2[3-6]|\n              [35]9|\n              4[26]|\n              76\n            )|\n            544|\n            88[245]|\n            (?:\n              52|\n              64|\n              86\n            )2\n          "), .s10,
       .leaf n.leadingDigits (str% "\n            3(?:\n              230|\n              397|\n              461\n            )|\n            4(?:\n              2(?:\n                35|\n                [46]4|\n                51\n              )|\n              396|\n              4(?:\n                22|\n                63\n              )|\n              59[347]|\n              76[15]\n            )|\n            5(?:\n              221|\n              446\n            )|\n            642[23]|\n            8(?:\n              622|\n              8(?:\n                [24]2|\n                5[13]\n              )\n            )\n          "), .s10,
       .leaf n.format (str% "$1 $2"), .s8], .s8,
     .elem n.numberFormat [(n.pattern, str% "(\\d{5})(\\d{4})"), (n.nationalPrefixFormattingRule, str% "($NP$FG)")]
      [.s10,
       .leaf n.leadingDigits (str% "\n            346|\n            4(?:\n              27|\n              9[35]\n            )|\n            883\n          "), .s10,
       .leaf n.leadingDigits (str% "\n            3469|\n            4(?:\n              279|\n              9(?:\n                30|\n                56\n              )\n            )|\n            8834\n          "), .s10,
       .leaf n.format (str% "$1 $2"), .s8], .s8,
     .elem n.numberFormat [(n.pattern, str% "(\\d)(\\d{4})(\\d{4})"), (n.nationalPrefixFormattingRule, str% "($NP$FG)")]
      [.s10,
       .leaf n.leadingDigits (str% "2"), .s10,
       .leaf n.format (str% "$1 $2 $3"), .s8], .s8,
     .elem n.numberFormat [(n.pattern, str% "(\\d{2})(\\d{3})(\\d{4})"), (n.nationalPrefixFormattingRule, str% "($NP$FG)")]
      [.s10,
       .leaf n.leadingDigits (str% "\n            [3-7]|\n            8[2-8]\n          "), .s10,
       .leaf n.format (str% "$1 $2 $3"), .s8], .s8,
     .elem n.numberFormat [(n.pattern, str% "(\\d{3})(\\d{3})(\\d{4})"), (n.nationalPrefixFormattingRule, str% "$NP$FG")]
      [.s10,
       .leaf n.leadingDigits (str% "[89]"), .s10,
       .leaf n.format (str% "$1 $2 $3"), .s8], .s8, .comment, .s8,
     .elem n.numberFormat [(n.pattern, str% "(\\d{4})(\\d{3})(\\d{4})")]
      [.s10,
       .leaf n.leadingDigits (str% "1"), .s10,
       .leaf n.format (str% "$1 $2 $3"), .s8], .s8,
     .elem n.numberFormat [(n.pattern, str% "(\\d{4})(\\d{1,2})(\\d{3})(\\d{4})")]
      [.s10,
       .leaf n.leadingDigits (str% "1"), .s10,
       .leaf n.format (str% "$1 $2 $3 $4"), .s8], .s6], .s6,
   .elem n.generalDesc []
    [.s8,
     .leaf n.nationalNumberPattern (str% "\n          (?:\n            [2-7]|\n            9\\d\n          )\\d{8}|\n          2\\d{5}|\n          (?:\n            1800|\n            8\n          )\\d{7,9}\n        "), .s6], .s6, .comment, .s6,
   .elem n.fixedLine []
    [.s8,
     .empty n.possibleLengths [(n.national, str% "6,[8-10]"), (n.localOnly, str% "4,5,7")], .s8,
     .leaf n.exampleNumber (str% "232345678"), .s8,
     .leaf n.nationalNumberPattern (str% "\n          (?:\n            (?:\n              2[3-8]|\n              3[2-68]|\n              4[2-9]|\n              5[2-6]|\n              6[2-58]|\n              7[24578]\n            )\\d{3}|\n            88(?:\n              22\\d\\d|\n              42\n            )\n          )\\d{4}|\n          (?:\n            2|\n            8[2-8]\\d\\d\n          )\\d{5}\n        "), .s6], .s6, .comment, .s6,
   .elem n.mobile []
    [.s8,
     .empty n.possibleLengths [(n.national, str% "10")], .s8,
     .leaf n.exampleNumber (str% "9051234567"), .s8,
     .leaf n.nationalNumberPattern (str% "\n          (?:\n            8(?:\n              1[37]|\n              9[5-8]\n            )|\n            9(?:\n              0[5-9]|\n              1[0-24-9]|\n              [235-7]\\d|\n              4[2-9]|\n              8[135-9]|\n              9[1-9]\n            )\n          )\\d{7}\n        "), .s6], .s6, .comment, .s6,
   .elem n.tollFree []
    [.s8,
     .empty n.possibleLengths [(n.national, str% "[11-13]")], .s8,
     .leaf n.exampleNumber (str% "180012345678"), .s8,
     .leaf n.nationalNumberPattern (str% "1800\\d{7,9}"), .s6], .s4]

/-- the nodes of this module -/
noncomputable def chunk11 : List (List Node × List (Str × Str) × List Node) :=
  [(NA_before, NA_attrs, NA), (NC_before, NC_attrs, NC), (NE_before, NE_attrs, NE), (NF_before, NF_attrs, NF),
   (NG_before, NG_attrs, NG), (NI_before, NI_attrs, NI), (NL_before, NL_attrs, NL), (NO_before, NO_attrs, NO),
   (NP_before, NP_attrs, NP), (NR_before, NR_attrs, NR), (NU_before, NU_attrs, NU), (NZ_before, NZ_attrs, NZ),
   (OM_before, OM_attrs, OM), (PA_before, PA_attrs, PA), (PE_before, PE_attrs, PE), (PF_before, PF_attrs, PF),
   (PG_before, PG_attrs, PG), (PH_before, PH_attrs, PH)]

end Phone.Data.X
