/-
The characters of the printer: code pages (ESC t) and international character sets (ESC R), from the mappings published for the code pages (the ones of the
Unicode consortium, as Python's codecs have them; for PC851 and PC853, which these do not have, the tables of IBM) and from the printer's documentation for
the character sets.
-/
namespace Thermal.Spec

/-- A table with some characters changed; the table begins at byte 128. -/
def changed (table : List Char) (changes : List (Nat × Char)) : List Char := changes.foldl (fun t x => t.set (x.1 - 128) x.2) table

/-- PC437: USA, standard Europe -/
def pc437 : List Char :=
  ['Ç', 'ü', 'é', 'â', 'ä', 'à', 'å', 'ç', 'ê', 'ë', 'è', 'ï', 'î', 'ì', 'Ä', 'Å',
   'É', 'æ', 'Æ', 'ô', 'ö', 'ò', 'û', 'ù', 'ÿ', 'Ö', 'Ü', '¢', '£', '¥', '₧', 'ƒ',
   'á', 'í', 'ó', 'ú', 'ñ', 'Ñ', 'ª', 'º', '¿', '⌐', '¬', '½', '¼', '¡', '«', '»',
   '░', '▒', '▓', '│', '┤', '╡', '╢', '╖', '╕', '╣', '║', '╗', '╝', '╜', '╛', '┐',
   '└', '┴', '┬', '├', '─', '┼', '╞', '╟', '╚', '╔', '╩', '╦', '╠', '═', '╬', '╧',
   '╨', '╤', '╥', '╙', '╘', '╒', '╓', '╫', '╪', '┘', '┌', '█', '▄', '▌', '▐', '▀',
   'α', 'ß', 'Γ', 'π', 'Σ', 'σ', 'µ', 'τ', 'Φ', 'Θ', 'Ω', 'δ', '∞', 'φ', 'ε', '∩',
   '≡', '±', '≥', '≤', '⌠', '⌡', '÷', '≈', '°', '∙', '·', '√', 'ⁿ', '²', '■', '\u00a0']

/-- PC850: multilingual -/
def pc850 : List Char :=
  ['Ç', 'ü', 'é', 'â', 'ä', 'à', 'å', 'ç', 'ê', 'ë', 'è', 'ï', 'î', 'ì', 'Ä', 'Å',
   'É', 'æ', 'Æ', 'ô', 'ö', 'ò', 'û', 'ù', 'ÿ', 'Ö', 'Ü', 'ø', '£', 'Ø', '×', 'ƒ',
   'á', 'í', 'ó', 'ú', 'ñ', 'Ñ', 'ª', 'º', '¿', '®', '¬', '½', '¼', '¡', '«', '»',
   '░', '▒', '▓', '│', '┤', 'Á', 'Â', 'À', '©', '╣', '║', '╗', '╝', '¢', '¥', '┐',
   '└', '┴', '┬', '├', '─', '┼', 'ã', 'Ã', '╚', '╔', '╩', '╦', '╠', '═', '╬', '¤',
   'ð', 'Ð', 'Ê', 'Ë', 'È', 'ı', 'Í', 'Î', 'Ï', '┘', '┌', '█', '▄', '¦', 'Ì', '▀',
   'Ó', 'ß', 'Ô', 'Ò', 'õ', 'Õ', 'µ', 'þ', 'Þ', 'Ú', 'Û', 'Ù', 'ý', 'Ý', '¯', '´',
   '\u00ad', '±', '‗', '¾', '¶', '§', '÷', '¸', '°', '¨', '·', '¹', '³', '²', '■', '\u00a0']

/-- PC860: Portuguese -/
def pc860 : List Char := changed pc437
  [(0x84, 'ã'), (0x86, 'Á'), (0x89, 'Ê'), (0x8B, 'Í'), (0x8C, 'Ô'), (0x8E, 'Ã'), (0x8F, 'Â'), (0x91, 'À'), (0x92, 'È'), (0x94, 'õ'), (0x96, 'Ú'), (0x98, 'Ì'), (0x99, 'Õ'), (0x9D, 'Ù'), (0x9F, 'Ó'), (0xA9, 'Ò')]

/-- PC863: Canadian French -/
def pc863 : List Char := changed pc437
  [(0x84, 'Â'), (0x86, '¶'), (0x8D, '‗'), (0x8E, 'À'), (0x8F, '§'), (0x91, 'È'), (0x92, 'Ê'), (0x94, 'Ë'), (0x95, 'Ï'), (0x98, '¤'), (0x99, 'Ô'), (0x9D, 'Ù'), (0x9E, 'Û'), (0xA0, '¦'), (0xA1, '´'), (0xA4, '¨'), (0xA5, '¸'), (0xA6, '³'), (0xA7, '¯'), (0xA8, 'Î'), (0xAD, '¾')]

/-- PC865: Nordic -/
def pc865 : List Char := changed pc437 [(0x9B, 'ø'), (0x9D, 'Ø'), (0xAF, '¤')]

/-- PC851: Greek (byte 0x91 is not used) -/
def pc851 : List (Option Char) :=
  [some 'Ç', some 'ü', some 'é', some 'â', some 'ä', some 'à', some 'Ά', some 'ç', some 'ê', some 'ë', some 'è', some 'ï', some 'î', some 'Έ', some 'Ä', some 'Ή',
   some 'Ί', none, some 'Ό', some 'ô', some 'ö', some 'Ύ', some 'û', some 'ù', some 'Ώ', some 'Ö', some 'Ü', some 'ά', some '£', some 'έ', some 'ή', some 'ί',
   some 'ϊ', some 'ΐ', some 'ό', some 'ύ', some 'Α', some 'Β', some 'Γ', some 'Δ', some 'Ε', some 'Ζ', some 'Η', some '½', some 'Θ', some 'Ι', some '«', some '»',
   some '░', some '▒', some '▓', some '│', some '┤', some 'Κ', some 'Λ', some 'Μ', some 'Ν', some '╣', some '║', some '╗', some '╝', some 'Ξ', some 'Ο', some '┐',
   some '└', some '┴', some '┬', some '├', some '─', some '┼', some 'Π', some 'Ρ', some '╚', some '╔', some '╩', some '╦', some '╠', some '═', some '╬', some 'Σ',
   some 'Τ', some 'Υ', some 'Φ', some 'Χ', some 'Ψ', some 'Ω', some 'α', some 'β', some 'γ', some '┘', some '┌', some '█', some '▄', some 'δ', some 'ε', some '▀',
   some 'ζ', some 'η', some 'θ', some 'ι', some 'κ', some 'λ', some 'μ', some 'ν', some 'ξ', some 'ο', some 'π', some 'ρ', some 'σ', some 'ς', some 'τ', some '´',
   some '\u00ad', some '±', some 'υ', some 'φ', some 'χ', some '§', some 'ψ', some '¸', some '°', some '¨', some 'ω', some 'ϋ', some 'ΰ', some 'ώ', some '■', some '\u00a0']

/-- PC853: Turkish (South Europe; six bytes are not used) -/
def pc853 : List (Option Char) :=
  [some 'Ç', some 'ü', some 'é', some 'â', some 'ä', some 'à', some 'ĉ', some 'ç', some 'ê', some 'ë', some 'è', some 'ï', some 'î', some 'ì', some 'Ä', some 'Ĉ',
   some 'É', some 'ċ', some 'Ċ', some 'ô', some 'ö', some 'ò', some 'û', some 'ù', some 'İ', some 'Ö', some 'Ü', some 'ĝ', some '£', some 'Ĝ', some '×', some 'ĵ',
   some 'á', some 'í', some 'ó', some 'ú', some 'ñ', some 'Ñ', some 'Ğ', some 'ğ', some 'Ĥ', some 'ĥ', none, some '½', some 'Ĵ', some 'ş', some '«', some '»',
   some '░', some '▒', some '▓', some '│', some '┤', some 'Á', some 'Â', some 'À', some 'Ş', some '╣', some '║', some '╗', some '╝', some 'Ż', some 'ż', some '┐',
   some '└', some '┴', some '┬', some '├', some '─', some '┼', some 'Ŝ', some 'ŝ', some '╚', some '╔', some '╩', some '╦', some '╠', some '═', some '╬', some '¤',
   none, none, some 'Ê', some 'Ë', some 'È', some 'ı', some 'Í', some 'Î', some 'Ï', some '┘', some '┌', some '█', some '▄', none, some 'Ì', some '▀',
   some 'Ó', some 'ß', some 'Ô', some 'Ò', some 'Ġ', some 'ġ', some 'µ', some 'Ħ', some 'ħ', some 'Ú', some 'Û', some 'Ù', some 'Ŭ', some 'ŭ', some '·', some '´',
   some '\u00ad', none, some 'ℓ', some 'ŉ', some '˘', some '§', some '÷', some '¸', some '°', some '¨', some '˙', none, some '³', some '²', some '■', some '\u00a0']

/-- PC857: Turkish; 0xD5, 0xE7 and 0xF2 are not used -/
def pc857 (b : UInt8) : Option Char :=
  if b ∈ [0xD5, 0xE7, 0xF2] then none
  else (changed pc850 [(0x8D, 'ı'), (0x98, 'İ'), (0x9E, 'Ş'), (0x9F, 'ş'), (0xA6, 'Ğ'), (0xA7, 'ğ'), (0xD0, 'º'), (0xD1, 'ª'), (0xE8, '×'), (0xEC, 'ì'), (0xED, 'ÿ')])[b.toNat - 128]?

/-- Katakana: JIS X 0201 (the characters around it are not standardized) -/
def katakana (b : UInt8) : Option Char := if 0xA1 ≤ b ∧ b ≤ 0xDF then some (Char.ofNat (0xFF61 + (b.toNat - 0xA1))) else none

/-- The character of a byte from 128 on in code page `page` (of the pages the program has tables for). -/
def pageChar (page b : UInt8) : Option Char :=
  if b < 128 then none
  else match page with
    | 0 => pc437[b.toNat - 128]?
    | 1 => katakana b
    | 2 => pc850[b.toNat - 128]?
    | 3 => pc860[b.toNat - 128]?
    | 4 => pc863[b.toNat - 128]?
    | 5 => pc865[b.toNat - 128]?
    | 11 => (pc851[b.toNat - 128]?).join
    | 12 => (pc853[b.toNat - 128]?).join
    | 13 => pc857 b
    | _ => none

/-- The bytes that stand for national characters. -/
def nationalPlaces : List UInt8 := [0x23, 0x24, 0x40, 0x5B, 0x5C, 0x5D, 0x5E, 0x60, 0x7B, 0x7C, 0x7D, 0x7E]

/-- The national characters, in the order of `nationalPlaces`. -/
def nationalRow (set : UInt8) : Option (List Char) :=
  match set with
  | 0 => some ['#', '$', '@', '[', '\\', ']', '^', '`', '{', '|', '}', '~']  -- U.S.A.
  | 1 => some ['#', '$', 'à', '°', 'ç', '§', '^', '`', 'é', 'ù', 'è', '¨']  -- France
  | 2 => some ['#', '$', '§', 'Ä', 'Ö', 'Ü', '^', '`', 'ä', 'ö', 'ü', 'ß']  -- Germany
  | 3 => some ['£', '$', '@', '[', '\\', ']', '^', '`', '{', '|', '}', '~']  -- U.K.
  | 4 => some ['#', '$', '@', 'Æ', 'Ø', 'Å', '^', '`', 'æ', 'ø', 'å', '~']  -- Denmark I
  | 5 => some ['#', '¤', 'É', 'Ä', 'Ö', 'Å', 'Ü', 'é', 'ä', 'ö', 'å', 'ü']  -- Sweden
  | 6 => some ['#', '$', '@', '°', '\\', 'é', '^', 'ù', 'à', 'ò', 'è', 'ì']  -- Italy
  | 7 => some ['₧', '$', '@', '¡', 'Ñ', '¿', '^', '`', '¨', 'ñ', '}', '~']  -- Spain I
  | 8 => some ['#', '$', '@', '[', '¥', ']', '^', '`', '{', '|', '}', '~']  -- Japan
  | 9 => some ['#', '¤', 'É', 'Æ', 'Ø', 'Å', 'Ü', 'é', 'æ', 'ø', 'å', 'ü']  -- Norway
  | 10 => some ['#', '$', 'É', 'Æ', 'Ø', 'Å', 'Ü', 'é', 'æ', 'ø', 'å', 'ü']  -- Denmark II
  | 11 => some ['#', '$', 'á', '¡', 'Ñ', '¿', 'é', '`', 'í', 'ñ', 'ó', 'ú']  -- Spain II
  | 12 => some ['#', '$', 'á', '¡', 'Ñ', '¿', 'é', 'ü', 'í', 'ñ', 'ó', 'ú']  -- Latin America
  | 13 => some ['#', '$', '@', '[', '₩', ']', '^', '`', '{', '|', '}', '~']  -- Korea
  | 14 => some ['#', '$', 'Ž', 'Š', 'Đ', 'Ć', 'Č', 'ž', 'š', 'đ', 'ć', 'č']  -- Slovenia / Croatia
  | 15 => some ['#', '¥', '@', '[', '\\', ']', '^', '`', '{', '|', '}', '~']  -- China
  | _ => none

/-- The character sets of India have their own digits; this is the zero. -/
def indianZero (set : UInt8) : Option Nat :=
  match set with
  | 66 => some 0x966  -- Devanagari
  | 67 => some 0x9E6  -- Bengali
  | 68 => some 0xBE6  -- Tamil
  | 69 => some 0xC66  -- Telugu
  | 70 => some 0x9E6  -- Assamese
  | 71 => some 0xB66  -- Oriya
  | 72 => some 0xCE6  -- Kannada
  | 73 => some 0xD66  -- Malayalam
  | 74 => some 0xAE6  -- Gujarati
  | 75 => some 0xA66  -- Punjabi
  | 82 => some 0x966  -- Marathi
  | _ => none

/-- The character of a byte below 128 in the international character set `set` (of those documented with a table). -/
def setChar (set b : UInt8) : Option Char :=
  if b ≥ 128 then none
  else match nationalRow set, indianZero set with
    | some row, _ =>
      match nationalPlaces.idxOf? b with
      | some i => row[i]?
      | none => some (Char.ofNat b.toNat)
    | none, some z => some (if 0x30 ≤ b ∧ b ≤ 0x39 then Char.ofNat (z + (b.toNat - 0x30)) else Char.ofNat b.toNat)
    | none, none => none

/-- The documented pages that the program has no table for. -/
def missingPages : List UInt8 := [6, 7, 8, 14, 15, 16, 17, 18, 19, 20, 21, 22, 23, 24, 25, 26, 30, 31, 32, 33, 34, 35, 36, 37, 38, 39, 40, 41, 42, 43, 44, 45,
  46, 47, 48, 49, 50, 51, 52, 53, 66, 67, 68, 69, 70, 71, 72, 73, 74, 75, 82, 254]

end Thermal.Spec
