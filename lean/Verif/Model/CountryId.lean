import Verif.Basic.Str
/-! # Country ids

Generated by `tools/gen_ids.py` from `/repo/src/country.rs:99-346` (`enum Id`, derives `EnumString` and `AsRefStr`, so
`from_str` accepts exactly the variant names and `as_ref` returns them). -/

namespace Phone

/-- `country::Id`, `/repo/src/country.rs:99-346`. -/
inductive Id where
  | AC | AD | AE | AF | AG | AI | AL | AM | AO | AR | AS | AT
  | AU | AW | AX | AZ | BA | BB | BD | BE | BF | BG | BH | BI
  | BJ | BL | BM | BN | BO | BQ | BR | BS | BT | BW | BY | BZ
  | CA | CC | CD | CF | CG | CH | CI | CK | CL | CM | CN | CO
  | CR | CU | CV | CW | CX | CY | CZ | DE | DJ | DK | DM | DO
  | DZ | EC | EE | EG | EH | ER | ES | ET | FI | FJ | FK | FM
  | FO | FR | GA | GB | GD | GE | GF | GG | GH | GI | GL | GM
  | GN | GP | GQ | GR | GT | GU | GW | GY | HK | HN | HR | HT
  | HU | ID | IE | IL | IM | IN | IO | IQ | IR | IS | IT | JE
  | JM | JO | JP | KE | KG | KH | KI | KM | KN | KP | KR | KW
  | KY | KZ | LA | LB | LC | LI | LK | LR | LS | LT | LU | LV
  | LY | MA | MC | MD | ME | MF | MG | MH | MK | ML | MM | MN
  | MO | MP | MQ | MR | MS | MT | MU | MV | MW | MX | MY | MZ
  | NA | NC | NE | NF | NG | NI | NL | NO | NP | NR | NU | NZ
  | OM | PA | PE | PF | PG | PH | PK | PL | PM | PR | PS | PT
  | PW | PY | QA | RE | RO | RS | RU | RW | SA | SB | SC | SD
  | SE | SG | SH | SI | SJ | SK | SL | SM | SN | SO | SR | SS
  | ST | SV | SX | SY | SZ | TA | TC | TD | TG | TH | TJ | TK
  | TL | TM | TN | TO | TR | TT | TV | TW | TZ | UA | UG | US
  | UY | UZ | VA | VC | VE | VG | VI | VN | VU | WF | WS | XK
  | YE | YT | ZA | ZM | ZW
  deriving DecidableEq, Repr

namespace Id

/-- `AsRefStr` derive of `Id`, `/repo/src/country.rs:99`. -/
def asRef : Id → Str
  | AC => ['A', 'C']
  | AD => ['A', 'D']
  | AE => ['A', 'E']
  | AF => ['A', 'F']
  | AG => ['A', 'G']
  | AI => ['A', 'I']
  | AL => ['A', 'L']
  | AM => ['A', 'M']
  | AO => ['A', 'O']
  | AR => ['A', 'R']
  | AS => ['A', 'S']
  | AT => ['A', 'T']
  | AU => ['A', 'U']
  | AW => ['A', 'W']
  | AX => ['A', 'X']
  | AZ => ['A', 'Z']
  | BA => ['B', 'A']
  | BB => ['B', 'B']
  | BD => ['B', 'D']
  | BE => ['B', 'E']
  | BF => ['B', 'F']
  | BG => ['B', 'G']
  | BH => ['B', 'H']
  | BI => ['B', 'I']
  | BJ => ['B', 'J']
  | BL => ['B', 'L']
  | BM => ['B', 'M']
  | BN => ['B', 'N']
  | BO => ['B', 'O']
  | BQ => ['B', 'Q']
  | BR => ['B', 'R']
  | BS => ['B', 'S']
  | BT => ['B', 'T']
  | BW => ['B', 'W']
  | BY => ['B', 'Y']
  | BZ => ['B', 'Z']
  | CA => ['C', 'A']
  | CC => ['C', 'C']
  | CD => ['C', 'D']
  | CF => ['C', 'F']
  | CG => ['C', 'G']
  | CH => ['C', 'H']
  | CI => ['C', 'I']
  | CK => ['C', 'K']
  | CL => ['C', 'L']
  | CM => ['C', 'M']
  | CN => ['C', 'N']
  | CO => ['C', 'O']
  | CR => ['C', 'R']
  | CU => ['C', 'U']
  | CV => ['C', 'V']
  | CW => ['C', 'W']
  | CX => ['C', 'X']
  | CY => ['C', 'Y']
  | CZ => ['C', 'Z']
  | DE => ['D', 'E']
  | DJ => ['D', 'J']
  | DK => ['D', 'K']
  | DM => ['D', 'M']
  | DO => ['D', 'O']
  | DZ => ['D', 'Z']
  | EC => ['E', 'C']
  | EE => ['E', 'E']
  | EG => ['E', 'G']
  | EH => ['E', 'H']
  | ER => ['E', 'R']
  | ES => ['E', 'S']
  | ET => ['E', 'T']
  | FI => ['F', 'I']
  | FJ => ['F', 'J']
  | FK => ['F', 'K']
  | FM => ['F', 'M']
  | FO => ['F', 'O']
  | FR => ['F', 'R']
  | GA => ['G', 'A']
  | GB => ['G', 'B']
  | GD => ['G', 'D']
  | GE => ['G', 'E']
  | GF => ['G', 'F']
  | GG => ['G', 'G']
  | GH => ['G', 'H']
  | GI => ['G', 'I']
  | GL => ['G', 'L']
  | GM => ['G', 'M']
  | GN => ['G', 'N']
  | GP => ['G', 'P']
  | GQ => ['G', 'Q']
  | GR => ['G', 'R']
  | GT => ['G', 'T']
  | GU => ['G', 'U']
  | GW => ['G', 'W']
  | GY => ['G', 'Y']
  | HK => ['H', 'K']
  | HN => ['H', 'N']
  | HR => ['H', 'R']
  | HT => ['H', 'T']
  | HU => ['H', 'U']
  | ID => ['I', 'D']
  | IE => ['I', 'E']
  | IL => ['I', 'L']
  | IM => ['I', 'M']
  | IN => ['I', 'N']
  | IO => ['I', 'O']
  | IQ => ['I', 'Q']
  | IR => ['I', 'R']
  | IS => ['I', 'S']
  | IT => ['I', 'T']
  | JE => ['J', 'E']
  | JM => ['J', 'M']
  | JO => ['J', 'O']
  | JP => ['J', 'P']
  | KE => ['K', 'E']
  | KG => ['K', 'G']
  | KH => ['K', 'H']
  | KI => ['K', 'I']
  | KM => ['K', 'M']
  | KN => ['K', 'N']
  | KP => ['K', 'P']
  | KR => ['K', 'R']
  | KW => ['K', 'W']
  | KY => ['K', 'Y']
  | KZ => ['K', 'Z']
  | LA => ['L', 'A']
  | LB => ['L', 'B']
  | LC => ['L', 'C']
  | LI => ['L', 'I']
  | LK => ['L', 'K']
  | LR => ['L', 'R']
  | LS => ['L', 'S']
  | LT => ['L', 'T']
  | LU => ['L', 'U']
  | LV => ['L', 'V']
  | LY => ['L', 'Y']
  | MA => ['M', 'A']
  | MC => ['M', 'C']
  | MD => ['M', 'D']
  | ME => ['M', 'E']
  | MF => ['M', 'F']
  | MG => ['M', 'G']
  | MH => ['M', 'H']
  | MK => ['M', 'K']
  | ML => ['M', 'L']
  | MM => ['M', 'M']
  | MN => ['M', 'N']
  | MO => ['M', 'O']
  | MP => ['M', 'P']
  | MQ => ['M', 'Q']
  | MR => ['M', 'R']
  | MS => ['M', 'S']
  | MT => ['M', 'T']
  | MU => ['M', 'U']
  | MV => ['M', 'V']
  | MW => ['M', 'W']
  | MX => ['M', 'X']
  | MY => ['M', 'Y']
  | MZ => ['M', 'Z']
  | NA => ['N', 'A']
  | NC => ['N', 'C']
  | NE => ['N', 'E']
  | NF => ['N', 'F']
  | NG => ['N', 'G']
  | NI => ['N', 'I']
  | NL => ['N', 'L']
  | NO => ['N', 'O']
  | NP => ['N', 'P']
  | NR => ['N', 'R']
  | NU => ['N', 'U']
  | NZ => ['N', 'Z']
  | OM => ['O', 'M']
  | PA => ['P', 'A']
  | PE => ['P', 'E']
  | PF => ['P', 'F']
  | PG => ['P', 'G']
  | PH => ['P', 'H']
  | PK => ['P', 'K']
  | PL => ['P', 'L']
  | PM => ['P', 'M']
  | PR => ['P', 'R']
  | PS => ['P', 'S']
  | PT => ['P', 'T']
  | PW => ['P', 'W']
  | PY => ['P', 'Y']
  | QA => ['Q', 'A']
  | RE => ['R', 'E']
  | RO => ['R', 'O']
  | RS => ['R', 'S']
  | RU => ['R', 'U']
  | RW => ['R', 'W']
  | SA => ['S', 'A']
  | SB => ['S', 'B']
  | SC => ['S', 'C']
  | SD => ['S', 'D']
  | SE => ['S', 'E']
  | SG => ['S', 'G']
  | SH => ['S', 'H']
  | SI => ['S', 'I']
  | SJ => ['S', 'J']
  | SK => ['S', 'K']
  | SL => ['S', 'L']
  | SM => ['S', 'M']
  | SN => ['S', 'N']
  | SO => ['S', 'O']
  | SR => ['S', 'R']
  | SS => ['S', 'S']
  | ST => ['S', 'T']
  | SV => ['S', 'V']
  | SX => ['S', 'X']
  | SY => ['S', 'Y']
  | SZ => ['S', 'Z']
  | TA => ['T', 'A']
  | TC => ['T', 'C']
  | TD => ['T', 'D']
  | TG => ['T', 'G']
  | TH => ['T', 'H']
  | TJ => ['T', 'J']
  | TK => ['T', 'K']
  | TL => ['T', 'L']
  | TM => ['T', 'M']
  | TN => ['T', 'N']
  | TO => ['T', 'O']
  | TR => ['T', 'R']
  | TT => ['T', 'T']
  | TV => ['T', 'V']
  | TW => ['T', 'W']
  | TZ => ['T', 'Z']
  | UA => ['U', 'A']
  | UG => ['U', 'G']
  | US => ['U', 'S']
  | UY => ['U', 'Y']
  | UZ => ['U', 'Z']
  | VA => ['V', 'A']
  | VC => ['V', 'C']
  | VE => ['V', 'E']
  | VG => ['V', 'G']
  | VI => ['V', 'I']
  | VN => ['V', 'N']
  | VU => ['V', 'U']
  | WF => ['W', 'F']
  | WS => ['W', 'S']
  | XK => ['X', 'K']
  | YE => ['Y', 'E']
  | YT => ['Y', 'T']
  | ZA => ['Z', 'A']
  | ZM => ['Z', 'M']
  | ZW => ['Z', 'W']

/-- All variants of `Id`, in declaration order. -/
def all : List Id :=
  [.AC, .AD, .AE, .AF, .AG, .AI, .AL, .AM, .AO, .AR, .AS, .AT, .AU, .AW,
   .AX, .AZ, .BA, .BB, .BD, .BE, .BF, .BG, .BH, .BI, .BJ, .BL, .BM, .BN,
   .BO, .BQ, .BR, .BS, .BT, .BW, .BY, .BZ, .CA, .CC, .CD, .CF, .CG, .CH,
   .CI, .CK, .CL, .CM, .CN, .CO, .CR, .CU, .CV, .CW, .CX, .CY, .CZ, .DE,
   .DJ, .DK, .DM, .DO, .DZ, .EC, .EE, .EG, .EH, .ER, .ES, .ET, .FI, .FJ,
   .FK, .FM, .FO, .FR, .GA, .GB, .GD, .GE, .GF, .GG, .GH, .GI, .GL, .GM,
   .GN, .GP, .GQ, .GR, .GT, .GU, .GW, .GY, .HK, .HN, .HR, .HT, .HU, .ID,
   .IE, .IL, .IM, .IN, .IO, .IQ, .IR, .IS, .IT, .JE, .JM, .JO, .JP, .KE,
   .KG, .KH, .KI, .KM, .KN, .KP, .KR, .KW, .KY, .KZ, .LA, .LB, .LC, .LI,
   .LK, .LR, .LS, .LT, .LU, .LV, .LY, .MA, .MC, .MD, .ME, .MF, .MG, .MH,
   .MK, .ML, .MM, .MN, .MO, .MP, .MQ, .MR, .MS, .MT, .MU, .MV, .MW, .MX,
   .MY, .MZ, .NA, .NC, .NE, .NF, .NG, .NI, .NL, .NO, .NP, .NR, .NU, .NZ,
   .OM, .PA, .PE, .PF, .PG, .PH, .PK, .PL, .PM, .PR, .PS, .PT, .PW, .PY,
   .QA, .RE, .RO, .RS, .RU, .RW, .SA, .SB, .SC, .SD, .SE, .SG, .SH, .SI,
   .SJ, .SK, .SL, .SM, .SN, .SO, .SR, .SS, .ST, .SV, .SX, .SY, .SZ, .TA,
   .TC, .TD, .TG, .TH, .TJ, .TK, .TL, .TM, .TN, .TO, .TR, .TT, .TV, .TW,
   .TZ, .UA, .UG, .US, .UY, .UZ, .VA, .VC, .VE, .VG, .VI, .VN, .VU, .WF,
   .WS, .XK, .YE, .YT, .ZA, .ZM, .ZW]

/-- `EnumString` derive of `Id` (`FromStr`), `/repo/src/country.rs:99`: the variant with exactly this name. -/
def fromStr (s : Str) : Option Id := all.find? fun i => i.asRef == s

end Id
end Phone
