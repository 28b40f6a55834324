import Verif.Model.Codepages
/-
What users expect of the text decoder, without reference to its tables.
-/
namespace Thermal

/-- 7-bit ASCII bytes read as the characters they are. -/
def asciiText (bs : List Byte) : Str := bs.map (fun b => Char.ofNat b.toNat)

/-- The code points that national character sets redefine: `# $ * @ [ \ ] ^ _ ` { | } ~`. -/
def nationalByte (b : Byte) : Bool :=
  [0x23, 0x24, 0x2A, 0x40, 0x5B, 0x5C, 0x5D, 0x5E, 0x5F, 0x60, 0x7B, 0x7C, 0x7D, 0x7E].contains b

/-- The decimal digits. -/
def digitByte (b : Byte) : Bool := 0x30 ≤ b && b ≤ 0x39

/-- Numbers of the languages that have a table (ESC R): 1-17 and the Indian ones 66-75, 82. -/
def europeanLanguage (n : Byte) : Bool := 1 ≤ n && n ≤ 17
/-- The Indian languages. -/
def indianLanguage (n : Byte) : Bool := (66 ≤ n && n ≤ 75) || n == 82

/-- Code page numbers that have a table (ESC t). -/
def knownPage (n : Byte) : Bool := [0, 1, 2, 3, 4, 5, 11, 12, 13].contains n

/-- Code points that are undefined in PC851, PC853 and PC857 (code pages 11, 12 and 13). -/
def undefinedByte (page b : Byte) : Bool :=
  (page == 11 && b == 0x91) || (page == 12 && [0xAA, 0xD0, 0xD1, 0xDD, 0xF1, 0xFB].contains b) ||
  (page == 13 && [0xE7, 0xF2].contains b)

/-- The code pages by number (ESC t): PC437, Katakana, PC850, PC860, PC863, PC865, PC851, PC853, PC857. -/
def pageNumbers : List (Byte × List Str) :=
  [(0, table437), (1, tableKatakana), (2, table850), (3, table860), (4, table863), (5, table865), (11, table851), (12, table853), (13, table857)]

/-- The international character sets by number (ESC R). -/
def setNumbers : List (Byte × List (Byte × Str)) :=
  [(0, langUsa), (1, langFrance), (2, langGermany), (3, langUk), (4, langDenmarkI), (5, langSweden),
   (6, langItaly), (7, langSpainI), (8, langJapan), (9, langNorway), (10, langDenmarkIi), (11, langSpainIi),
   (12, langLatinAmerica), (13, langKorea), (14, langSlovenia), (15, langChina), (16, langVietnam), (17, langArabia),
   (66, langDevanagari), (67, langBengali), (68, langTamil), (69, langTelugu), (70, langAssamese), (71, langOriya),
   (72, langKannada), (73, langMalayalam), (74, langGujarati), (75, langPunjabi), (82, langMarathi)]

/-- The text of one byte: bytes from 128 on are read in the code page, the others as ASCII unless the character set
replaces them.  Numbers without a table count as 0. -/
def byteText (page set b : Byte) : Str :=
  if b ≥ 128 then ((pageNumbers.lookup page).getD table437).getD (b.toNat - 128) []
  else (((setNumbers.lookup set).getD []).lookup b).getD [Char.ofNat b.toNat]

end Thermal
