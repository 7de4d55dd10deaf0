import Verif.Style.Model

/-! # What CSS says about computed values

Written from the definitions of CSS (Cascade 4 §4, Values 4 §6.1, Backgrounds 3 §3.3, Color 4 §9),
from the root of the document downwards. It uses none of the functions of the model. -/

namespace Verif.Style

/-- The properties that CSS says are inherited, among those of the engine. -/
def cssInherited : List Property :=
  [.color, .fontSize, .fontWeight, .fontFamily, .fontStyle, .lineHeight, .letterSpacing, .textAlign,
   .textTransform, .textWrap, .whiteSpace]

/-- The widths of the four borders, the property for their style, and that for their colour. -/
def borderSides : List (Property × Property × Property) :=
  [(.borderTopWidth, .borderTopStyle, .borderTopColor),
   (.borderRightWidth, .borderRightStyle, .borderRightColor),
   (.borderBottomWidth, .borderBottomStyle, .borderBottomColor),
   (.borderLeftWidth, .borderLeftStyle, .borderLeftColor)]

/-- `p` is the colour of a border. Its initial value is `currentcolor`. -/
def IsBorderColor (p : Property) : Prop := p ∈ borderSides.map (fun s => s.2.2)

instance : DecidablePred IsBorderColor := fun p => inferInstanceAs (Decidable (p ∈ _))

/-- `p` has a colour as its value. -/
def IsColor (p : Property) : Prop := p = .color ∨ p = .backgroundColor ∨ IsBorderColor p

/-- The initial value of a property that is not the colour of a border (CSS 2 for `min-width` and
`min-height`; `font-family` is left to the browser). -/
def cssInitial (F : Type) [Num F] (p : Property) : Value F :=
  if p = .color then .color 0 0 0 255
  else if p = .backgroundColor then .color 0 0 0 0
  else if p = .fontSize then .unit sixteen .px
  else if p = .fontWeight then .fontWeight .normal
  else if p = .display then .display .inline
  else if p = .textAlign then .textAlign .start
  else if p = .textWrap then .textWrap .wrap
  else if p = .fontFamily then .keyword "serif"
  else if p = .position then .keyword "static"
  else if p = .justifyItems then .keyword "legacy"
  else if p = .boxSizing then .keyword "content-box"
  else if p = .flexWrap then .keyword "nowrap"
  else if p = .flexGrow then .number zero
  else if p ∈ [.flexShrink, .opacity] then .number one
  else if p ∈ [.flexDirection, .gridAutoFlow] then .keyword "row"
  else if p ∈ [.overflowX, .overflowY] then .keyword "visible"
  else if p ∈ [.maxWidth, .maxHeight, .gridTemplateRows, .gridTemplateColumns, .textDecorationLine,
    .backgroundImage, .textTransform] then .keyword "none"
  else if p ∈ [.gap, .alignItems, .alignContent, .justifyContent, .lineHeight, .fontStyle, .whiteSpace,
    .content, .letterSpacing, .mixBlendMode] then .keyword "normal"
  else if p ∈ borderSides.map (fun s => s.1) then .unit three .px
  else if p ∈ borderSides.map (fun s => s.2.1) then .borderStyle .none
  else if p ∈ [.marginTop, .marginRight, .marginBottom, .marginLeft, .paddingTop, .paddingRight,
    .paddingBottom, .paddingLeft, .minWidth, .minHeight, .borderTopLeftRadius, .borderTopRightRadius,
    .borderBottomLeftRadius, .borderBottomRightRadius] then .unit zero .px
  else .keyword "auto"

variable {F : Type} [Num F]

/-- The declaration that wins at a node: an `!important` one of a sheet, then the `style` attribute,
then another one of a sheet, then an attribute such as `bgcolor`. -/
def cascaded (n : Node F) (p : Property) : Option (Sheet F) :=
  if n.important p = true ∧ (n.sheet p).isSome then n.sheet p
  else ((n.inline p).map .val).or ((n.sheet p).or ((n.attr p).map .val))

/-- The font size of a node in px, given that of the root and that of its parent. Percentages and
keywords are not covered. -/
def fontPx (root parent : F) (n : Node F) : F :=
  match cascaded n .fontSize with
  | some (.val (.unit v .px)) => v
  | some (.val (.unit v .em)) => mul v parent
  | some (.val (.unit v .rem)) => mul v root
  | _ => parent

/-- The font size of the root, for a list of nodes that starts with it. -/
def rootPx : List (Node F) → F
  | [] => sixteen
  | r :: _ => fontPx sixteen sixteen r

/-- The font size of the last node of a list that goes from the root down to it. -/
def fontAt : List (Node F) → F
  | [] => sixteen
  | r :: below => below.foldl (fontPx (fontPx sixteen sixteen r)) (fontPx sixteen sixteen r)

/-- A length in `em` or `rem` is turned into px. -/
def absolute (root font : F) : Value F → Value F
  | .unit v .em => .unit (mul v font) .px
  | .unit v .rem => .unit (mul v root) .px
  | v => v

/-- The computed `color` of the first node of a list of a node and its ancestors. -/
def colorOf : List (Node F) → Value F
  | [] => cssInitial F .color
  | n :: up =>
    match cascaded n .color with
    | some (.val v) => absolute (rootPx (n :: up).reverse) (fontAt (n :: up).reverse) v
    | _ => colorOf up

/-- The value of `p`, before borders without a style lose their width. -/
def specified (p : Property) : List (Node F) → Value F
  | [] => cssInitial F p
  | n :: up =>
    match cascaded n p with
    | some (.val v) => absolute (rootPx (n :: up).reverse) (fontAt (n :: up).reverse) v
    | some .currentColor => if p = .color then colorOf up else colorOf (n :: up)
    | none =>
      if p ∈ cssInherited then specified p up
      else if IsBorderColor p then colorOf (n :: up)
      else cssInitial F p

/-- A border that is not drawn. -/
def Undrawn (v : Value F) : Prop := v = .borderStyle .none ∨ v = .borderStyle .hidden

/-- `v` is the computed value of `p` for the first node of a list of a node and its ancestors. -/
def IsComputed (line : List (Node F)) (p : Property) (v : Value F) : Prop :=
  if p = .fontSize then v = .unit (fontAt line.reverse) .px
  else
    (∀ s c, (p, s, c) ∈ borderSides → Undrawn (specified s line) → v = .unit zero .px) ∧
    ((∀ s c, (p, s, c) ∈ borderSides → ¬ Undrawn (specified s line)) → v = specified p line)

/-- The font sizes declared on a line of nodes are lengths. -/
def PlainFonts (line : List (Node F)) : Prop :=
  ∀ n ∈ line, ∀ d, cascaded n .fontSize = some d → ∃ v u, d = .val (.unit v u) ∧ u ≠ .percent

/-- No value on a line of nodes is in `rem`, or the font size of the root is 16px. -/
def RemsPlain (line : List (Node F)) : Prop :=
  rootPx line.reverse = sixteen ∨ ∀ n ∈ line, ∀ p v, cascaded n p ≠ some (.val (.unit v .rem))

/-- No `!important` declaration of a sheet is for a property that the `style` attribute sets too. -/
def NoneOverruled (line : List (Node F)) : Prop :=
  ∀ n ∈ line, ∀ p, n.important p = true → (n.sheet p).isSome → n.inline p = none

/-- `currentcolor` is declared for colours, and not for `color` itself. -/
def CurrentColorPlain (line : List (Node F)) : Prop :=
  ∀ n ∈ line, ∀ p d, cascaded n p = some d → (∀ v, d ≠ .val v) → IsColor p ∧ p ≠ .color

end Verif.Style
