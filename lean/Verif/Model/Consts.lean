import Verif.Regex.Match
/-! # `/repo/src/consts.rs` -/

namespace Phone.Consts
open Re

/-- `/repo/src/consts.rs:22` -/
def minLengthForNsn : Nat := 2
/-- `/repo/src/consts.rs:25` -/
def maxLengthForNsn : Nat := 17
/-- `/repo/src/consts.rs:28` -/
def maxLengthForCountryCode : Nat := 3

/-- Class item for one character. -/
def one (c : Char) : CItem := .range c c
/-- Class items for the characters of a string. -/
def ones (s : Str) : List CItem := s.map one

/-- `DEFAULT_IDD = Regex::new("00")`, `/repo/src/consts.rs:53` -/
def defaultIdd : Regex := ⟨str% "00", .cat (chr '0') (chr '0'), 0⟩

/-- `VALID_START_CHAR = [\+\x{FF0B}\p{Nd}]`, `/repo/src/consts.rs:245-248,280-281` -/
def validStartChar : Regex := ⟨str% "[\\+\\x{FF0B}\\p{Nd}]", set [one '+', one '\uFF0B', .nd], 0⟩

/-- `SECOND_NUMBER_START = [\\/] *x`, `/repo/src/consts.rs:290` -/
def secondNumberStart : Regex :=
  ⟨str% "[\\\\/] *x", .cat (set [one '\\', one '/']) (.cat (.star true (chr ' ')) (chr 'x')), 0⟩

/-- The class `[[\P{N}&&\P{L}]&&[^#]]` of `/repo/src/consts.rs:297`, written as the complement of N, L and `#`. -/
def unwantedEndChar : Cls := ⟨true, [.n, .l, one '#']⟩

/-- `UNWANTED_END_CHARS = [[\P{N}&&\P{L}]&&[^#]]+$`, `/repo/src/consts.rs:296-297` -/
def unwantedEndChars : Regex :=
  ⟨str% "[[\\P{N}&&\\P{L}]&&[^#]]+$", .cat (plus (.cls unwantedEndChar)) .eos, 0⟩

/-- `.` (any character but line feed) -/
def dot : Re := .cls ⟨true, [one '\n']⟩

/-- `VALID_ALPHA_PHONE = (?:.*?[A-Za-z]){3}.*`, `/repo/src/consts.rs:302-303` -/
def validAlphaPhone : Regex :=
  ⟨str% "(?:.*?[A-Za-z]){3}.*",
   .cat (rep (.cat (.star false dot) (set [.range 'A' 'Z', .range 'a' 'z'])) 3) (.star true dot), 0⟩

/-- Keypad digit of an ASCII letter: `ALPHA_MAPPINGS`, `/repo/src/consts.rs:124-181`. -/
def alphaMappings : List (Char × Char) :=
  [('A', '2'), ('B', '2'), ('C', '2'), ('D', '3'), ('E', '3'), ('F', '3'), ('G', '4'), ('H', '4'), ('I', '4'),
   ('J', '5'), ('K', '5'), ('L', '5'), ('M', '6'), ('N', '6'), ('O', '6'), ('P', '7'), ('Q', '7'), ('R', '7'),
   ('S', '7'), ('T', '8'), ('U', '8'), ('V', '8'), ('W', '9'), ('X', '9'), ('Y', '9'), ('Z', '9'),
   ('a', '2'), ('b', '2'), ('c', '2'), ('d', '3'), ('e', '3'), ('f', '3'), ('g', '4'), ('h', '4'), ('i', '4'),
   ('j', '5'), ('k', '5'), ('l', '5'), ('m', '6'), ('n', '6'), ('o', '6'), ('p', '7'), ('q', '7'), ('r', '7'),
   ('s', '7'), ('t', '8'), ('u', '8'), ('v', '8'), ('w', '9'), ('x', '9'), ('y', '9'), ('z', '9')]

/-- `ASCII_MAPPINGS`, `/repo/src/consts.rs:95-108` -/
def asciiMappings : List (Char × Char) :=
  [('0', '0'), ('1', '1'), ('2', '2'), ('3', '3'), ('4', '4'), ('5', '5'), ('6', '6'), ('7', '7'), ('8', '8'), ('9', '9')]

/-- `ALPHA_PHONE_MAPPINGS`, `/repo/src/consts.rs:184-189` -/
def alphaPhoneMappings : List (Char × Char) := asciiMappings ++ alphaMappings

/-- `VALID_PUNCTUATION` as class items, `/repo/src/consts.rs:242` -/
def validPunctuation : List CItem :=
  [one '-', one 'x', .range '\u2010' '\u2015', one '\u2212', one '\u30FC', .range '\uFF0D' '\uFF0F', one ' ',
   one '\u00A0', one '\u00AD', one '\u200B', one '\u2060', one '\u3000', one '(', one ')', one '\uFF08', one '\uFF09',
   one '\uFF3B', one '\uFF3D', one '.', one '[', one ']', one '/', one '~', one '\u2053', one '\u223C', one '\uFF5E']

/-- `SEPARATOR_PATTERN = [VALID_PUNCTUATION]+`, `/repo/src/consts.rs:266-267` -/
def separatorPattern : Regex := ⟨str% "[<VALID_PUNCTUATION>]+", plus (set validPunctuation), 0⟩

/-- `DEFAULT_EXTN_PREFIX`, `/repo/src/consts.rs:311` (the literal is repeated in `/repo/src/formatter.rs:142,178`) -/
def defaultExtnPrefix : Str := str% " ext. "

/-- Case-insensitive literal: the simple case folding classes of the letters used in `EXTN_PATTERN`
(`s` also folds with U+017F). -/
def ci (c : Char) : List CItem :=
  if c = 's' then [one 's', one 'S', one '\u017F']
  else if 97 ≤ c.toNat ∧ c.toNat ≤ 122 then [one c, one (Char.ofNat (c.toNat - 32))]
  else if c = '\u00F3' then [one '\u00F3', one '\u00D3']
  else if 0xFF41 ≤ c.toNat ∧ c.toNat ≤ 0xFF5A then [one c, one (Char.ofNat (c.toNat - 32))]
  else [one c]

/-- Case-insensitive literal string. -/
def ciLit : Str → Re
  | [] => .eps
  | [c] => set (ci c)
  | c :: cs => .cat (set (ci c)) (ciLit cs)

/-- `CAPTURING_EXTN_DIGITS = (\p{Nd}{0,7})`, `/repo/src/consts.rs:315`, as group `g` -/
def extnDigits (g : Nat) : Re := .grp g (upto (set [.nd]) 7)

/-- First alternative of `EXTN_PATTERNS_FOR_PARSING`: `;ext=(\p{Nd}{0,7})`, `/repo/src/consts.rs:326` -/
def extnRfc : Re := .cat (ciLit (str% ";ext=")) (extnDigits 1)

/-- The words and symbols introducing an extension, `/repo/src/consts.rs:326,329`:
`(?:e?xt(?:ensi(?:o\x{0301}?|\x{00F3}))?n?|\x{FF45}?\x{FF58}\x{FF54}\x{FF4E}?|[,;x\x{FF58}#\x{FF03}~\x{FF5E}]|int|anexo|\x{FF49}\x{FF4E}\x{FF54})` -/
def extnWord : Re :=
  .alt
    (.cat (opt (ciLit ['e'])) (.cat (ciLit (str% "xt"))
      (.cat (opt (.cat (ciLit (str% "ensi")) (.alt (.cat (ciLit ['o']) (opt (chr '\u0301'))) (ciLit ['\u00F3']))))
        (opt (ciLit ['n'])))))
  (.alt
    (.cat (opt (ciLit ['\uFF45'])) (.cat (ciLit ['\uFF58', '\uFF54']) (opt (ciLit ['\uFF4E']))))
  (.alt
    (set ([one ',', one ';'] ++ ci 'x' ++ ci '\uFF58' ++ [one '#', one '\uFF03', one '~', one '\uFF5E']))
  (.alt (ciLit (str% "int")) (.alt (ciLit (str% "anexo")) (ciLit ['\uFF49', '\uFF4E', '\uFF54'])))))

/-- Second alternative: `[ \x{00A0}\t,]*WORD[:\.\x{FF0E}]?[ \x{00A0}\t,-]*(\p{Nd}{0,7})#?`, `/repo/src/consts.rs:326` -/
def extnWords : Re :=
  .cat (.star true (set [one ' ', one '\u00A0', one '\t', one ',']))
  (.cat extnWord
  (.cat (opt (set [one ':', one '.', one '\uFF0E']))
  (.cat (.star true (set [one ' ', one '\u00A0', one '\t', one ',', one '-']))
  (.cat (extnDigits 2) (opt (chr '#'))))))

/-- Third alternative: `[- ]+(\p{Nd}{1,5})#`, `/repo/src/consts.rs:326` -/
def extnHash : Re :=
  .cat (plus (set [one '-', one ' '])) (.cat (.grp 3 (.cat (set [.nd]) (upto (set [.nd]) 4))) (chr '#'))

/-- `EXTN_PATTERN`: `(?:...|...|...)$`, case-insensitive, `/repo/src/consts.rs:324-332,351-356` -/
def extnPattern : Regex :=
  ⟨str% "(?:<EXTN_PATTERNS_FOR_PARSING>)$", .cat (.alt extnRfc (.alt extnWords extnHash)) .eos, 3⟩

/-- `FIRST_GROUP = (\$\d)`, `/repo/src/consts.rs:375` -/
def firstGroup : Regex := ⟨str% "(\\$\\d)", .grp 1 (.cat (chr '$') (set [.nd])), 1⟩

/-- `NP`, `/repo/src/consts.rs:377` -/
def np : Str := str% "$NP"
/-- `FG`, `/repo/src/consts.rs:378` -/
def fg : Str := str% "$FG"
/-- `CC`, `/repo/src/consts.rs:379` -/
def cc : Str := str% "$CC"

end Phone.Consts
