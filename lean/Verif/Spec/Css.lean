import Verif.Model.Color
/-
A small part of CSS: style sheets made of rules whose selectors are a tag name with classes, and the cascade for a single element.
Rules inside `@media` and selectors with a space are left out: those of the documents concern the printed page and `position` only.
-/
namespace Thermal.Spec

/-- A color, as CSS writes it: red, green, blue and alpha, each from 0 to 255, as two hexadecimal digits. -/
def cssColor (red green blue alpha : Nat) : Str :=
  '#' :: [red, green, blue, alpha].flatMap fun n => ["0123456789ABCDEF".toList.getD (n / 16) '?', "0123456789ABCDEF".toList.getD (n % 16) '?']

/-- The color of a style, as CSS writes it. -/
def rgbaColor (c : RGBA) : Str := cssColor c.r.toNat c.g.toNat c.b.toNat c.a.toNat

/-- The parts of a text between the separators. -/
def parts (sep : Char) : Str → List Str
  | [] => [[]]
  | c :: s =>
    if c = sep then [] :: parts sep s
    else match parts sep s with
      | [] => [[c]]
      | p :: ps => (c :: p) :: ps

/-- Without white space at both ends. -/
def trim (s : Str) : Str :=
  let white : Char → Bool := fun c => c = ' ' || c = '\n'
  ((s.dropWhile white).reverse.dropWhile white).reverse

/-- What follows the first `p`. -/
def after (p : Str) : Str → Str
  | [] => []
  | c :: s => if p.isPrefixOf (c :: s) then (c :: s).drop p.length else after p s

/-- What precedes the first `p`. -/
def upTo (p : Str) : Str → Str
  | [] => []
  | c :: s => if p.isPrefixOf (c :: s) then [] else c :: upTo p s

/-- Where we are with respect to comments: outside, before the star that opens one, inside, before the slash that closes it. -/
inductive CommentState where
  | outside | opening | inside | closing

/-- Without comments. -/
def uncomment : CommentState → Str → Str
  | _, [] => []
  | .outside, c :: s => if ['/', '*'].isPrefixOf (c :: s) then uncomment .opening s else c :: uncomment .outside s
  | .opening, _ :: s => uncomment .inside s
  | .inside, c :: s => if ['*', '/'].isPrefixOf (c :: s) then uncomment .closing s else uncomment .inside s
  | .closing, _ :: s => uncomment .outside s

/-- A rule for elements with a tag (any, if empty) and all of some classes. -/
structure CssRule where
  tag : Str
  classes : List Str
  declarations : List (Str × Str)
  deriving DecidableEq, Repr

/-- `name: value; name: value; ...` -/
def declarations (body : Str) : List (Str × Str) :=
  (parts ';' body).filterMap fun d =>
    match parts ':' d with
    | [p, v] => some (trim p, trim v)
    | _ => none

/-- `tag.class.class` -/
def selector (s : Str) : Option (Str × List Str) :=
  if ' ' ∈ s then none
  else match parts '.' s with
    | tag :: classes => some (tag, classes)
    | [] => none

/-- The rules of a style sheet. -/
def cssRules (css : Str) : List CssRule :=
  (parts '}' (uncomment .outside css)).flatMap fun piece =>
    match parts '{' piece with
    | [sel, body] => (parts ',' sel).filterMap fun s => (selector (trim s)).map fun x => ⟨x.1, x.2, declarations body⟩
    | _ => []

/-- The style sheet in an HTML document. -/
def styleSheet (html : Str) : List CssRule := cssRules (upTo "</style>".toList (after "<style>".toList html))

/-- A rule applies to a `tag` with classes. -/
def CssRule.applies (r : CssRule) (tag : Str) (has : Str → Bool) : Bool := (r.tag = [] || r.tag = tag) && r.classes.all has

/-- Specificity: the number of classes, then the tag. -/
def CssRule.weight (r : CssRule) : Nat := 2 * r.classes.length + (if r.tag = [] then 0 else 1)

/-- What a rule says about a property; the last declaration counts. -/
def CssRule.value (r : CssRule) (prop : Str) : Option Str := ((r.declarations.filter (·.1 = prop)).getLast?).map (·.2)

/-- The cascade for one property: the most specific rule wins, and of several the last. -/
def cascade (rules : List CssRule) (tag : Str) (has : Str → Bool) (prop : Str) : Option (Nat × Str) :=
  rules.foldl (fun best r =>
    match r.value prop with
    | none => best
    | some v =>
      if r.applies tag has then
        match best with
        | none => some (r.weight, v)
        | some b => if b.1 ≤ r.weight then some (r.weight, v) else best
      else best) none

/-- The value of a property of a `span` element with these classes. -/
def spanStyle (rules : List CssRule) (classes : List Str) (prop : String) : Option Str :=
  (cascade rules "span".toList (fun k => classes.contains k) prop.toList).map (·.2)

/-- A decimal number. -/
def numeral (s : Str) : Int :=
  match s with
  | '-' :: r => - (r.foldl (fun n c => 10 * n + (c.toNat - 48)) 0 : Nat)
  | r => (r.foldl (fun n c => 10 * n + (c.toNat - 48)) 0 : Nat)

/-- By how much an element is stretched in each direction; negative: mirrored. -/
def stretching (transform : Option Str) : Int × Int :=
  match transform with
  | none => (1, 1)
  | some v =>
    let args := parts ',' (upTo ")".toList (after "(".toList v))
    let f := upTo "(".toList v
    match args with
    | [a] => if f = "scaleX".toList then (numeral a, 1) else if f = "scaleY".toList then (1, numeral a)
        else if f = "scale".toList then (numeral a, numeral a) else (0, 0)
    | [a, b] => if f = "scale".toList then (numeral a, numeral (trim b)) else (0, 0)
    | _ => (0, 0)

end Thermal.Spec
