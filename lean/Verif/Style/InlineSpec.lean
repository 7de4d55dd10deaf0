import Verif.Style.Inline

/-! # What a `style` attribute means

Written from CSS (Syntax 3 §8.2, Values 4, Color 4). It uses none of the functions of the model except
the parameter that gives the value of a number. -/

namespace Verif.Style

/-- The text has a first and a last character, and neither is a blank. -/
def Neat (s : List Char) : Prop :=
  ∃ h : s ≠ [], ws (s.head h) = false ∧ ws (s.getLast h) = false

/-- A part of a `style` attribute: a declaration with any blanks around its two sides, or blanks. -/
inductive Part where
  | decl (a name b c value d : List Char)
  | blank (a : List Char)

def Part.text : Part → List Char
  | .decl a name b c value d => a ++ name ++ b ++ [':'] ++ c ++ value ++ d
  | .blank a => a

def Blank (s : List Char) : Prop := ∀ c ∈ s, ws c = true ∧ c ≠ ';' ∧ c ≠ ':'

/-- Blanks are blanks, and a name and a value are texts that do not end the declaration. -/
def Part.Good : Part → Prop
  | .decl a name b c value d => Blank a ∧ Blank b ∧ Blank c ∧ Blank d ∧ Neat name ∧ Neat value ∧
      ';' ∉ name ∧ ':' ∉ name ∧ ';' ∉ value
  | .blank a => Blank a

/-- The text of a `style` attribute: its parts with semicolons between them. -/
def attrText : List Part → List Char
  | [] => []
  | [p] => p.text
  | p :: ps => p.text ++ ';' :: attrText ps

/-- A CSS number without an exponent. -/
inductive CssNumber : List Char → Prop where
  | whole (sign ds : List Char) (hs : sign = [] ∨ sign = ['+'] ∨ sign = ['-'])
      (hd : ds ≠ []) (h : ∀ c ∈ ds, '0' ≤ c ∧ c ≤ '9') : CssNumber (sign ++ ds)
  | point (sign ds es : List Char) (hs : sign = [] ∨ sign = ['+'] ∨ sign = ['-'])
      (he : es ≠ []) (h : ∀ c ∈ ds, '0' ≤ c ∧ c ≤ '9') (h' : ∀ c ∈ es, '0' ≤ c ∧ c ≤ '9') :
      CssNumber (sign ++ ds ++ '.' :: es)

/-- The value of a hexadecimal digit. -/
inductive Hex : Char → Nat → Prop where
  | digit (k : Fin 10) : Hex (Char.ofNat (48 + k)) k
  | small (k : Fin 6) : Hex (Char.ofNat (97 + k)) (10 + k)
  | large (k : Fin 6) : Hex (Char.ofNat (65 + k)) (10 + k)

/-- CSS properties whose value is a length, with the property of the engine. In the horizontal
writing mode the logical names are other names for the physical ones. -/
def cssLengths : List (String × Property) :=
  [("width", .width), ("height", .height), ("min-width", .minWidth), ("min-height", .minHeight),
   ("max-width", .maxWidth), ("max-height", .maxHeight), ("font-size", .fontSize),
   ("flex-basis", .flexBasis), ("gap", .gap),
   ("margin-top", .marginTop), ("margin-right", .marginRight), ("margin-bottom", .marginBottom),
   ("margin-left", .marginLeft), ("margin-block-start", .marginTop), ("margin-inline-end", .marginRight),
   ("margin-block-end", .marginBottom), ("margin-inline-start", .marginLeft),
   ("padding-top", .paddingTop), ("padding-right", .paddingRight), ("padding-bottom", .paddingBottom),
   ("padding-left", .paddingLeft), ("padding-block-start", .paddingTop),
   ("padding-inline-end", .paddingRight), ("padding-block-end", .paddingBottom),
   ("padding-inline-start", .paddingLeft),
   ("border-top-width", .borderTopWidth), ("border-right-width", .borderRightWidth),
   ("border-bottom-width", .borderBottomWidth), ("border-left-width", .borderLeftWidth),
   ("border-top-left-radius", .borderTopLeftRadius), ("border-top-right-radius", .borderTopRightRadius),
   ("border-bottom-right-radius", .borderBottomRightRadius),
   ("border-bottom-left-radius", .borderBottomLeftRadius),
   ("top", .insetBlockStart), ("right", .insetInlineEnd), ("bottom", .insetBlockEnd),
   ("left", .insetInlineStart), ("inset-block-start", .insetBlockStart),
   ("inset-inline-end", .insetInlineEnd), ("inset-block-end", .insetBlockEnd),
   ("inset-inline-start", .insetInlineStart)]

/-- CSS properties whose value is a colour. -/
def cssColors : List (String × Property) :=
  [("color", .color), ("background-color", .backgroundColor), ("border-top-color", .borderTopColor),
   ("border-right-color", .borderRightColor), ("border-bottom-color", .borderBottomColor),
   ("border-left-color", .borderLeftColor)]

/-- The styles of the sides of a border. -/
def cssBorderStyles : List (String × Property) :=
  [("border-top-style", .borderTopStyle), ("border-right-style", .borderRightStyle),
   ("border-bottom-style", .borderBottomStyle), ("border-left-style", .borderLeftStyle)]

/-- The words for the style of a border. -/
def cssBorderWords : List (String × BorderStyle) :=
  [("none", .none), ("hidden", .hidden), ("dotted", .dotted), ("dashed", .dashed), ("solid", .solid),
   ("double", .double), ("groove", .groove), ("ridge", .ridge), ("inset", .inset), ("outset", .outset)]

/-- The words for `display` that the engine knows. -/
def cssDisplays : List (String × Display) :=
  [("none", .none), ("block", .block), ("inline", .inline), ("inline-block", .inlineBlock),
   ("flex", .flex), ("inline-flex", .inlineFlex), ("grid", .grid), ("inline-grid", .inlineGrid),
   ("table", .table), ("table-row", .tableRow), ("table-cell", .tableCell),
   ("table-caption", .tableCaption), ("table-row-group", .tableRowGroup),
   ("table-header-group", .tableHeaderGroup), ("table-footer-group", .tableFooterGroup)]

variable {F : Type}

/-- What a declaration means: the values it gives to properties. `x.value` is the value of a number. -/
inductive Means (x : Ext F) : String → List Char → List (Property × Value F) → Prop where
  | px {name p num} : (name, p) ∈ cssLengths → CssNumber num →
      Means x name (num ++ ['p', 'x']) [(p, .unit (x.value num) .px)]
  | em {name p num} : (name, p) ∈ cssLengths → CssNumber num →
      Means x name (num ++ ['e', 'm']) [(p, .unit (x.value num) .em)]
  | rem {name p num} : (name, p) ∈ cssLengths → CssNumber num →
      Means x name (num ++ ['r', 'e', 'm']) [(p, .unit (x.value num) .rem)]
  | hex3 {name p a b c k l m} : (name, p) ∈ cssColors → Hex a k → Hex b l → Hex c m →
      Means x name ['#', a, b, c] [(p, .color (17 * k) (17 * l) (17 * m) 255)]
  | hex6 {name p a a' b b' c c' k k' l l' m m'} : (name, p) ∈ cssColors →
      Hex a k → Hex a' k' → Hex b l → Hex b' l' → Hex c m → Hex c' m' →
      Means x name ['#', a, a', b, b', c, c']
        [(p, .color (16 * k + k') (16 * l + l') (16 * m + m') 255)]
  | hex8 {name p a a' b b' c c' d d' k k' l l' m m' o o'} : (name, p) ∈ cssColors →
      Hex a k → Hex a' k' → Hex b l → Hex b' l' → Hex c m → Hex c' m' → Hex d o → Hex d' o' →
      Means x name ['#', a, a', b, b', c, c', d, d']
        [(p, .color (16 * k + k') (16 * l + l') (16 * m + m') (16 * o + o'))]
  | borderStyle {name p w b} : (name, p) ∈ cssBorderStyles → (w, b) ∈ cssBorderWords →
      Means x name w.toList [(p, .borderStyle b)]
  | display {w d} : (w, d) ∈ cssDisplays → Means x "display" w.toList [(.display, .display d)]
  | margin {num} : CssNumber num →
      Means x "margin" (num ++ ['p', 'x'])
        [(.marginTop, .unit (x.value num) .px), (.marginRight, .unit (x.value num) .px),
         (.marginBottom, .unit (x.value num) .px), (.marginLeft, .unit (x.value num) .px)]

/-- What the parts of an attribute mean together, in order. -/
inductive AllMean (x : Ext F) : List Part → List (Property × Value F) → Prop where
  | nil : AllMean x [] []
  | blank {a ps l} : AllMean x ps l → AllMean x (.blank a :: ps) l
  | decl {a name b c value d ps k l} : Means x (String.ofList name) value k → AllMean x ps l →
      AllMean x (.decl a name b c value d :: ps) (k ++ l)

/-- The last value that a list gives to a property. -/
def lastFor (p : Property) (l : List (Property × Value F)) : Option (Value F) :=
  (l.reverse.find? (fun e => e.1 = p)).map Prod.snd

/-- All characters take one byte. -/
def Ascii (s : List Char) : Prop := ∀ c ∈ s, c.toNat < 128

end Verif.Style
