/-
Damaged UTF-8 text, by the Unicode standard (chapter 3.9, "substitution of maximal subparts").  `String.utf8EncodeChar` of Lean's library gives the bytes of a
character.
-/
namespace Thermal.Spec

/-- Some first bytes of a character, but not all of them. -/
def isBeginning (p : List UInt8) : Prop := p ≠ [] ∧ ∃ c : Char, p <+: String.utf8EncodeChar c ∧ p ≠ String.utf8EncodeChar c

/-- What the bytes read as: characters that are all there as themselves; where none is, one replacement character U+FFFD for the longest beginning of
a character, or, when there is none, for one byte. -/
inductive Reads : List UInt8 → List Char → Prop
  | done : Reads [] []
  | char (c : Char) {rest : List UInt8} {text : List Char} (h : Reads rest text) : Reads (String.utf8EncodeChar c ++ rest) (c :: text)
  | damaged (p : List UInt8) {rest : List UInt8} {text : List Char} (none : ∀ c : Char, ¬ String.utf8EncodeChar c <+: p ++ rest)
      (some : p.length = 1 ∨ isBeginning p) (longest : ∀ q, q <+: p ++ rest → isBeginning q → q.length ≤ p.length) (h : Reads rest text) :
      Reads (p ++ rest) ('\uFFFD' :: text)

end Thermal.Spec
