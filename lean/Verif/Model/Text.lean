import Verif.Model.Context
/-
Model of thermal_parser/src/text.rs.
-/
namespace Thermal

/-- text.rs:36-75 `TextSpan::new` (products of two u8 values cannot overflow a u32) -/
def TextSpan.new (text : Str) (c : Context) : TextSpan :=
  { font := c.text.font
    characterWidth := c.text.characterWidth.toNat * c.text.widthMult.toNat
    characterHeight := c.text.characterHeight.toNat * c.text.heightMult.toNat
    baseCharacterWidth := c.text.characterWidth.toNat
    baseCharacterHeight := c.text.characterHeight.toNat
    text := text
    bold := c.text.bold
    italic := c.text.italic
    underline := match c.text.underline with
      | .on => c.pointsToPixels 1
      | .double => c.pointsToPixels 2
      | .off => 0
    strikethrough := match c.text.strikethrough with
      | .on => c.pointsToPixels 1
      | .double => c.pointsToPixels 2
      | .off => 0
    stretchWidth := c.text.widthMult.toNat
    stretchHeight := c.text.heightMult.toNat
    inverted := c.text.invert
    upsideDown := c.text.upsideDown
    justify := c.text.justify
    dimensions := none
    backgroundColor := c.text.backgroundColor
    textColor := c.text.color }

/-- text.rs:77-81 -/
def TextSpan.newForBarcode (text : Str) (c : Context) : TextSpan := { TextSpan.new text c with font := c.barcode.font }

/-- text.rs:96-98 (`as u32` is exact for texts shorter than 2^32 characters) -/
def TextSpan.characterCount (s : TextSpan) : Nat := s.text.length

/-- text.rs:92-94 -/
def TextSpan.getWidth (s : TextSpan) : Rs Nat := mulU32 s.characterCount s.characterWidth

/-- text.rs:83-90 -/
def TextSpan.getDimensions (s : TextSpan) (c : Context) : Rs TextSpan := do
  let w ← s.getWidth
  pure { s with dimensions := some ⟨c.getX, c.getY, w, s.characterHeight⟩ }

/-- text.rs:100-123 -/
def TextSpan.cloneWith (s : TextSpan) (t : Str) : TextSpan := { s with text := t, dimensions := none }

/-- text.rs:149-158: the chunks after the first; `k` bounds the number of iterations (the index grows by `len` each
time). -/
def chunksAux (len : Nat) : Nat → Str → List Str
  | 0, _ => []
  | _ + 1, [] => []
  | k + 1, c :: s => (c :: s).take len :: chunksAux len k ((c :: s).drop len)

/-- text.rs:125-161 `break_apart`.  `index` after the first chunk is `first`; skipping `first` characters is `drop`. -/
def TextSpan.breakApart (s : TextSpan) (first len : Nat) : Rs (List TextSpan) :=
  if len = 0 then .error .explicit
  else if first > 0 ∧ s.text.length > 0 then
    .ok (s.cloneWith (s.text.take first) :: (chunksAux len s.text.length (s.text.drop first)).map s.cloneWith)
  else
    .ok (s.cloneWith [] :: (chunksAux len s.text.length s.text).map s.cloneWith)

/-- text.rs:167-184: the loop over the characters with the word collected so far. -/
def wordsLoop : Str → Str → List Str
  | [], cur => if cur = [] then [] else [cur]
  | c :: rest, cur =>
    if isWhitespace c then (cur ++ [c]) :: wordsLoop rest []
    else wordsLoop rest (cur ++ [c])

/-- text.rs:163-187 `break_into_words` -/
def TextSpan.breakIntoWords (s : TextSpan) : List TextSpan := (wordsLoop s.text []).map s.cloneWith

end Thermal
