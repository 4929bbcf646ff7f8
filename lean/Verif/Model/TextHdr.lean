import Verif.Model.Ebcdic

/-!
# Default text headers

Model of src/CommonSEGY.cpp:455-495 and of the edits made by the writers.
-/

namespace Sedaman

/-- Characters of an ASCII literal. -/
def ascii (s : String) : Bytes := s.toList.map fun c => BitVec.ofNat 8 c.toNat

/-- The lines of `default_text_header`. CommonSEGY.cpp:455-495 -/
def defaultLines : List String := [
  "C 1 CLIENT                        COMPANY                       CREW NO         ",
  "C 2 LINE            AREA                        MAP ID                          ",
  "C 3 REEL NO           DAY-START OF REEL     YEAR      OBSERVER                  ",
  "C 4 INSTRUMENT: MFG            MODEL            SERIAL NO                       ",
  "C 5 DATA TRACES/RECORD        AUXILIARY TRACES/RECORD         CDP FOLD          ",
  "C 6 SAMPLE INTERVAL        SAMPLES/TRACE        BITS/IN     BYTES/SAMPLE        ",
  "C 7 RECORDING FORMAT       FORMAT THIS REEL         MEASUREMENT SYSTEM          ",
  "C 8 SAMPLE CODE: FLOATING PT     FIXED PT     FIXED PT-GAIN     CORRELATED      ",
  "C 9 GAIN  TYPE: FIXED     BINARY     FLOATING POINT     OTHER                   ",
  "C10 FILTERS: ALIAS     HZ  NOTCH     HZ  BAND     -     HZ  SLOPE    -    DB/OCT",
  "C11 SOURCE: TYPE            NUMBER/POINT        POINT INTERVAL                  ",
  "C12     PATTERN:                           LENGTH        WIDTH                  ",
  "C13 SWEEP: START     HZ END      HZ  LENGTH      MS  CHANNEL NO     TYPE        ",
  "C14 TAPER: START LENGTH       MS  END LENGTH       MS TYPE                      ",
  "C15 SPREAD: OFFSET        MAX DISTANCE        GROUP INTEVAL                     ",
  "C16 GEOPHONES: PER GROUP     SPACEING    FREQUENCY     MFG          MODEL       ",
  "C17     PATTERN:                           LENGTH        WIDTH                  ",
  "C18 TRACES SORTED BY: RECORD     CDP     OTHER                                  ",
  "C19 AMPLITUDE RECOVERY: NONE      SPHERICAL DIV       AGC    OTHER              ",
  "C20 MAP PROJECTION                      ZONE ID       COORDINATE UNITS          ",
  "C21 PROCESSING:                                                                 ",
  "C22 PROCESSING:                                                                 ",
  "C23                                                                             ",
  "C24                                                                             ",
  "C25                                                                             ",
  "C26                                                                             ",
  "C27                                                                             ",
  "C28                                                                             ",
  "C29                                                                             ",
  "C30                                                                             ",
  "C31                                                                             ",
  "C32                                                                             ",
  "C33                                                                             ",
  "C34                                                                             ",
  "C35                                                                             ",
  "C36                                                                             ",
  "C37                                                                             ",
  "C38                                                                             ",
  "C39 SEG-Y_REV2.0                                                                ",
  "C40 END TEXTUAL HEADER                                                          "]

/-- `string(CommonSEGY::default_text_header, 3200)`. OSEGYRev0.cpp:35-36, OSEGYRev1.cpp:35-36,
OSEGYRev2.cpp:38-39 -/
def defaultText : Bytes := (defaultLines.map ascii).flatten

/-- `string::find`: position of the first occurrence of `pat`. -/
def findSub (pat : Bytes) : Bytes → Option Nat
  | [] => if pat = [] then some 0 else none
  | c :: t => if pat.isPrefixOf (c :: t) then some 0 else (findSub pat t).map (· + 1)

/-- `txt.replace(txt.find(pat), pat.size(), new)`; without an occurrence `replace` throws
`out_of_range` (`none`). OSEGYRev0.cpp:37-41, OSEGYRev1.cpp:37-40 -/
def replaceFirst (pat new txt : Bytes) : Option Bytes :=
  (findSub pat txt).map fun p => txt.take p ++ new ++ txt.drop (p + pat.length)

/-- Default text of revision 0. `string(' ', 12)` calls the constructor `string(count, char)` with
count 32 (the code of a blank) and the character with code 12 (form feed).
OSEGYRev0.cpp:35-42 -/
def defaultTextRev0 : Option Bytes :=
  (replaceFirst (ascii "SEG-Y_REV2.0") (List.replicate 32 12) defaultText).map asciiToEbcdic

/-- Default text of revision 1. OSEGYRev1.cpp:35-41 -/
def defaultTextRev1 : Option Bytes :=
  replaceFirst (ascii "SEG-Y_REV2.0") (ascii "SEG Y REV1  ") defaultText

/-- Default text of revision 2. OSEGYRev2.cpp:38-40 -/
def defaultTextRev2 : Bytes := defaultText

end Sedaman
