import Verif.Model.Codepages
/-
Model of thermal_parser/src/decoder/mod.rs.
-/
namespace Thermal

/-- decoder/mod.rs:13-21 `Codepage`.  `name` and `language` are only used in debug output and left out; the
`[&str; 256]` array is a list. -/
structure Codepage where
  table : List Str
  useUtf8 : Bool
  deriving DecidableEq, Repr

/-- decoder/mod.rs:29-36: look every byte up in the table and join the parts. -/
def decodeTable (table : List Str) : List Byte → Rs Str
  | [] => pure []
  | b :: bs => do
    let part ← idx table b.toNat
    let rest ← decodeTable table bs
    pure (part ++ rest)

/-- decoder/mod.rs:24-37 `decode_utf8` -/
def Codepage.decode (c : Codepage) (bytes : List Byte) : Rs Str :=
  if c.useUtf8 then pure (fromUtf8Lossy bytes) else decodeTable c.table bytes

/-- decoder/mod.rs:73-85 `get_codepage_table` -/
def codepageTable (n : Byte) : List Str :=
  if n = 1 then tableKatakana else if n = 2 then table850 else if n = 3 then table860 else if n = 4 then table863
  else if n = 5 then table865 else if n = 11 then table851 else if n = 12 then table853 else if n = 13 then table857
  else table437

/-- decoder/mod.rs:87-119 `get_language_replacements` -/
def languageReplacements (n : Byte) : List (Byte × Str) :=
  if n = 1 then langFrance else if n = 2 then langGermany else if n = 3 then langUk else if n = 4 then langDenmarkI
  else if n = 5 then langSweden else if n = 6 then langItaly else if n = 7 then langSpainI else if n = 8 then langJapan
  else if n = 9 then langNorway else if n = 10 then langDenmarkIi else if n = 11 then langSpainIi
  else if n = 12 then langLatinAmerica else if n = 13 then langKorea else if n = 14 then langSlovenia
  else if n = 15 then langChina else if n = 16 then langVietnam else if n = 17 then langArabia
  else if n = 66 then langDevanagari else if n = 67 then langBengali else if n = 68 then langTamil
  else if n = 69 then langTelugu else if n = 70 then langAssamese else if n = 71 then langOriya
  else if n = 72 then langKannada else if n = 73 then langMalayalam else if n = 74 then langGujarati
  else if n = 75 then langPunjabi else if n = 82 then langMarathi else langUsa

/-- decoder/mod.rs:40-71 `get_codepage`.  The two copy loops fill indices 0..128 and 128..256 of the array (both
tables have the type `[&str; 128]`), which is the concatenation; the replacements are in-bounds writes. -/
def getCodepage (codepage language : Byte) : Codepage :=
  { table := (languageReplacements language).foldl (fun t r => t.set r.1.toNat r.2) (tableBase ++ codepageTable codepage)
    useUtf8 := false }

/-- context.rs:855-864 `update_decoder` -/
def contextDecoder (codeTable characterSet : Byte) : Codepage :=
  { getCodepage codeTable characterSet with useUtf8 := codeTable == 255 }

end Thermal
