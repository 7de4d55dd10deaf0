/-! # Computed styles: `get_style` and the values it starts from

Model of `crates/gosub_render_pipeline/src/common/document/style.rs` and of the parts of
`pipeline_doc.rs` (same directory) that turn declarations into the values that layout and painting
use. Numbers are an abstract type: `f32` and its multiplication are not modelled, and what is proved
holds for any multiplication. Interned keywords (style.rs:13-25) are their strings. -/

namespace Verif.Style

/-- The constants and the multiplication of `f32` that the code uses. -/
class Num (F : Type) where
  mul : F → F → F
  zero : F
  one : F
  three : F
  sixteen : F

export Num (mul zero one three sixteen)

/-- `Unit` (style.rs:29-35). -/
inductive Unit where
  | px | em | rem | percent
deriving DecidableEq, Repr

/-- `BorderStyle` (style.rs:37-49). -/
inductive BorderStyle where
  | none | hidden | solid | dashed | dotted | double | groove | ridge | inset | outset
deriving DecidableEq, Repr

/-- `Display` (style.rs:51-68). -/
inductive Display where
  | block | inline | inlineBlock | none | flex | inlineFlex | grid | inlineGrid | table
  | tableCaption | tableCell | tableFooterGroup | tableHeaderGroup | tableRow | tableRowGroup
deriving DecidableEq, Repr

/-- `FontWeight` (style.rs:70-77). -/
inductive FontWeight (F : Type) where
  | normal | bold | bolder | lighter
  | number (v : F)
deriving DecidableEq, Repr

/-- `TextAlign` (style.rs:79-92). -/
inductive TextAlign where
  | left | right | center | justify | start | «end» | matchParent | initial | inherit | revert | unset
deriving DecidableEq, Repr

/-- `TextWrap` (style.rs:94-106). -/
inductive TextWrap where
  | wrap | noWrap | balance | pretty | stable | initial | inherit | revert | revertLayer | unset
deriving DecidableEq, Repr

/-- `Value` (style.rs:110-125). -/
inductive Value (F : Type) where
  | unit (v : F) (u : Unit)
  | color (r g b a : Nat)
  | number (v : F)
  | percentage (v : F)
  | display (d : Display)
  | fontWeight (w : FontWeight F)
  | textAlign (t : TextAlign)
  | textWrap (t : TextWrap)
  | borderStyle (b : BorderStyle)
  | keyword (s : String)
deriving DecidableEq, Repr

/-- `StyleProperty` (style.rs:223-302), in the order of `id` (style.rs:306-387). -/
inductive Property where
  | color | backgroundColor | fontSize | fontWeight | display | width | height | marginTop
  | marginRight | marginBottom | marginLeft | paddingTop | paddingRight | paddingBottom
  | paddingLeft | borderTopWidth | borderRightWidth | borderBottomWidth | borderLeftWidth
  | borderTopColor | borderRightColor | borderBottomColor | borderLeftColor | borderTopStyle
  | borderRightStyle | borderBottomStyle | borderLeftStyle | fontFamily | flexBasis
  | flexDirection | flexGrow | flexShrink | flexWrap | scrollbarWidth | position | minWidth
  | minHeight | maxWidth | maxHeight | borderTopLeftRadius | borderTopRightRadius
  | borderBottomLeftRadius | borderBottomRightRadius | aspectRatio | gap | alignItems | alignSelf
  | alignContent | textAlign | insetBlockEnd | insetBlockStart | insetInlineEnd
  | insetInlineStart | justifyItems | justifySelf | justifyContent | overflowX | overflowY
  | boxSizing | lineHeight | textWrap | gridRow | gridColumn | gridAutoFlow | gridTemplateRows
  | gridTemplateColumns | gridAutoRows | gridAutoColumns | fontStyle | whiteSpace
  | textDecorationLine | backgroundImage | content | opacity | textTransform | zIndex
  | letterSpacing | mixBlendMode
deriving DecidableEq, Repr

/-- `StyleProperty::id` (style.rs:306-387). -/
def Property.id : Property → Nat
  | .color => 0 | .backgroundColor => 1 | .fontSize => 2 | .fontWeight => 3 | .display => 4
  | .width => 5 | .height => 6 | .marginTop => 7 | .marginRight => 8 | .marginBottom => 9
  | .marginLeft => 10 | .paddingTop => 11 | .paddingRight => 12 | .paddingBottom => 13
  | .paddingLeft => 14 | .borderTopWidth => 15 | .borderRightWidth => 16
  | .borderBottomWidth => 17 | .borderLeftWidth => 18 | .borderTopColor => 19
  | .borderRightColor => 20 | .borderBottomColor => 21 | .borderLeftColor => 22
  | .borderTopStyle => 23 | .borderRightStyle => 24 | .borderBottomStyle => 25
  | .borderLeftStyle => 26 | .fontFamily => 27 | .flexBasis => 28 | .flexDirection => 29
  | .flexGrow => 30 | .flexShrink => 31 | .flexWrap => 32 | .scrollbarWidth => 33
  | .position => 34 | .minWidth => 35 | .minHeight => 36 | .maxWidth => 37 | .maxHeight => 38
  | .borderTopLeftRadius => 39 | .borderTopRightRadius => 40 | .borderBottomLeftRadius => 41
  | .borderBottomRightRadius => 42 | .aspectRatio => 43 | .gap => 44 | .alignItems => 45
  | .alignSelf => 46 | .alignContent => 47 | .textAlign => 48 | .insetBlockEnd => 49
  | .insetBlockStart => 50 | .insetInlineEnd => 51 | .insetInlineStart => 52
  | .justifyItems => 53 | .justifySelf => 54 | .justifyContent => 55 | .overflowX => 56
  | .overflowY => 57 | .boxSizing => 58 | .lineHeight => 59 | .textWrap => 60 | .gridRow => 61
  | .gridColumn => 62 | .gridAutoFlow => 63 | .gridTemplateRows => 64
  | .gridTemplateColumns => 65 | .gridAutoRows => 66 | .gridAutoColumns => 67 | .fontStyle => 68
  | .whiteSpace => 69 | .textDecorationLine => 70 | .backgroundImage => 71 | .content => 72
  | .opacity => 73 | .textTransform => 74 | .zIndex => 75 | .letterSpacing => 76
  | .mixBlendMode => 77

/-- `PropertyMeta` (style.rs:400-406). -/
structure Meta (F : Type) where
  name : String
  inherited : Bool
  initial : Value F

/-- `PROPERTIES` (style.rs:450-920). -/
def properties (F : Type) [Num F] : List (Meta F) := [
  ⟨"color", true, .color 0 0 0 255⟩,
  ⟨"background-color", false, .color 0 0 0 0⟩,
  ⟨"font-size", true, .unit sixteen .px⟩,
  ⟨"font-weight", true, .fontWeight .normal⟩,
  ⟨"display", false, .display .inline⟩,
  ⟨"width", false, .keyword "auto"⟩,
  ⟨"height", false, .keyword "auto"⟩,
  ⟨"margin-top", false, .unit zero .px⟩,
  ⟨"margin-right", false, .unit zero .px⟩,
  ⟨"margin-bottom", false, .unit zero .px⟩,
  ⟨"margin-left", false, .unit zero .px⟩,
  ⟨"padding-top", false, .unit zero .px⟩,
  ⟨"padding-right", false, .unit zero .px⟩,
  ⟨"padding-bottom", false, .unit zero .px⟩,
  ⟨"padding-left", false, .unit zero .px⟩,
  ⟨"border-top-width", false, .unit three .px⟩,
  ⟨"border-right-width", false, .unit three .px⟩,
  ⟨"border-bottom-width", false, .unit three .px⟩,
  ⟨"border-left-width", false, .unit three .px⟩,
  ⟨"border-top-color", false, .color 0 0 0 255⟩,
  ⟨"border-right-color", false, .color 0 0 0 255⟩,
  ⟨"border-bottom-color", false, .color 0 0 0 255⟩,
  ⟨"border-left-color", false, .color 0 0 0 255⟩,
  ⟨"border-top-style", false, .borderStyle .none⟩,
  ⟨"border-right-style", false, .borderStyle .none⟩,
  ⟨"border-bottom-style", false, .borderStyle .none⟩,
  ⟨"border-left-style", false, .borderStyle .none⟩,
  ⟨"font-family", true, .keyword "serif"⟩,
  ⟨"flex-basis", false, .keyword "auto"⟩,
  ⟨"flex-direction", false, .keyword "row"⟩,
  ⟨"flex-grow", false, .number zero⟩,
  ⟨"flex-shrink", false, .number one⟩,
  ⟨"flex-wrap", false, .keyword "nowrap"⟩,
  ⟨"scrollbar-width", false, .keyword "auto"⟩,
  ⟨"position", false, .keyword "static"⟩,
  ⟨"min-width", false, .unit zero .px⟩,
  ⟨"min-height", false, .unit zero .px⟩,
  ⟨"max-width", false, .keyword "none"⟩,
  ⟨"max-height", false, .keyword "none"⟩,
  ⟨"border-top-left-radius", false, .unit zero .px⟩,
  ⟨"border-top-right-radius", false, .unit zero .px⟩,
  ⟨"border-bottom-left-radius", false, .unit zero .px⟩,
  ⟨"border-bottom-right-radius", false, .unit zero .px⟩,
  ⟨"aspect-ratio", false, .keyword "auto"⟩,
  ⟨"gap", false, .keyword "normal"⟩,
  ⟨"align-items", false, .keyword "normal"⟩,
  ⟨"align-self", false, .keyword "auto"⟩,
  ⟨"align-content", false, .keyword "normal"⟩,
  ⟨"text-align", true, .textAlign .start⟩,
  ⟨"inset-block-end", false, .keyword "auto"⟩,
  ⟨"inset-block-start", false, .keyword "auto"⟩,
  ⟨"inset-inline-end", false, .keyword "auto"⟩,
  ⟨"inset-inline-start", false, .keyword "auto"⟩,
  ⟨"justify-items", false, .keyword "legacy"⟩,
  ⟨"justify-self", false, .keyword "auto"⟩,
  ⟨"justify-content", false, .keyword "normal"⟩,
  ⟨"overflow-x", false, .keyword "visible"⟩,
  ⟨"overflow-y", false, .keyword "visible"⟩,
  ⟨"box-sizing", false, .keyword "content-box"⟩,
  ⟨"line-height", true, .keyword "normal"⟩,
  ⟨"text-wrap", false, .textWrap .wrap⟩,
  ⟨"grid-row", false, .keyword "auto"⟩,
  ⟨"grid-column", false, .keyword "auto"⟩,
  ⟨"grid-auto-flow", false, .keyword "row"⟩,
  ⟨"grid-template-rows", false, .keyword "none"⟩,
  ⟨"grid-template-columns", false, .keyword "none"⟩,
  ⟨"grid-auto-rows", false, .keyword "auto"⟩,
  ⟨"grid-auto-columns", false, .keyword "auto"⟩,
  ⟨"font-style", true, .keyword "normal"⟩,
  ⟨"white-space", true, .keyword "normal"⟩,
  ⟨"text-decoration-line", true, .keyword "none"⟩,
  ⟨"background-image", false, .keyword "none"⟩,
  ⟨"content", false, .keyword "normal"⟩,
  ⟨"opacity", false, .number one⟩,
  ⟨"text-transform", true, .keyword "none"⟩,
  ⟨"z-index", false, .keyword "auto"⟩,
  ⟨"letter-spacing", true, .keyword "normal"⟩,
  ⟨"mix-blend-mode", false, .keyword "normal"⟩]

/-- `prop.meta()`, `property_meta` (style.rs:445-447): `PROPERTIES[id]`. The index is always in range
(`meta_in_range`), so the fallback is never used. -/
def Property.meta (F : Type) [Num F] (p : Property) : Meta F :=
  (properties F).getD p.id ⟨"", false, .keyword ""⟩

/-- `border_width_peer_style` (pipeline_doc.rs:1493-1501). -/
def peerStyle : Property → Option Property
  | .borderTopWidth => some .borderTopStyle
  | .borderRightWidth => some .borderRightStyle
  | .borderBottomWidth => some .borderBottomStyle
  | .borderLeftWidth => some .borderLeftStyle
  | _ => none

/-- What the style sheets say about a property of a node, after the cascade: a value that
`css_property_to_value` can read, or the keyword `currentcolor`. -/
inductive Sheet (F : Type) where
  | val (v : Value F)
  | currentColor

/-- The styles of one node: what its `style` attribute gives (`inline_style_cache`), what the sheets
give (`style_cache`), whether that was declared `!important`, and what its other attributes give
(`html_presentation_attr`). A text node and a generated text have none of them
(pipeline_doc.rs:977-979, 1004-1006); a pseudo-element has only `sheet` (1216-1220). -/
structure Node (F : Type) where
  inline : Property → Option (Value F)
  sheet : Property → Option (Sheet F)
  important : Property → Bool
  attr : Property → Option (Value F)

/-- The properties for which `currentcolor` is looked up (pipeline_doc.rs:1059-1066). -/
def usesColor : Property → Bool
  | .backgroundColor | .borderTopColor | .borderRightColor | .borderBottomColor
  | .borderLeftColor => true
  | _ => false

/-- `get_own_style` (pipeline_doc.rs:1216-1241) with `style_from_map` (1014-1111). `color` is the
computed `color` of the node. `RgbColor::from("currentcolor")` is black
(gosub_css3/src/colors.rs:52-55), which is what `currentcolor` gives outside the five properties.
Left out: the keys `text-decoration`, `background`, `background-image`, `top`, `right`, `bottom` and
`left` that stand in for the key of the property. -/
def ownStyle {F : Type} (n : Node F) (color : Value F) (p : Property) : Option (Value F) :=
  match n.inline p with
  | some v => some v
  | none =>
    match n.sheet p with
    | some (.val v) => some v
    | some .currentColor => if usesColor p then some color else some (.color 0 0 0 255)
    | none => n.attr p

/-- The order in which `get_style` asks for other properties of the same node. -/
def rank : Property → Nat
  | .fontSize => 0
  | .borderTopWidth | .borderRightWidth | .borderBottomWidth | .borderLeftWidth
  | .backgroundColor | .borderTopColor | .borderRightColor | .borderBottomColor
  | .borderLeftColor => 2
  | _ => 1

theorem peer_rank {p q : Property} (h : peerStyle p = some q) : rank q < rank p := by
  cases p <;> simp [peerStyle] at h <;> subst h <;> decide

theorem color_rank {p : Property} (h : usesColor p = true) : rank .color < rank p := by
  cases p <;> simp [usesColor] at h <;> decide

theorem font_rank {p : Property} (h : p ≠ .fontSize) : rank .fontSize < rank p := by
  cases p <;> first | decide | exact absurd rfl h

/-- The test at pipeline_doc.rs:712-716. -/
def noBorder {F : Type} : Value F → Bool
  | .borderStyle .none => true
  | .borderStyle .hidden => true
  | _ => false

/-- `font_size_px` (pipeline_doc.rs:755-760), given the computed `font-size`. -/
def pxOr16 {F : Type} [Num F] : Value F → F
  | .unit px .px => px
  | _ => sixteen

/-- `get_style` (pipeline_doc.rs:708-750). `up` are the ancestors of the node, the nearest first;
`self.parent(id)` is the head of that list. -/
def getStyle {F : Type} [Num F] (n : Node F) (up : List (Node F)) (p : Property) : Value F :=
  if (match h : peerStyle p with
      | some q => noBorder (getStyle n up q)
      | none => false) then .unit zero .px
  else
    let color := if h : usesColor p = true then getStyle n up .color else .color 0 0 0 255
    match ownStyle n color p with
    | some raw =>
      match raw with
      | .unit v .rem => .unit (mul v sixteen) .px
      | .unit v .em =>
        if h : p = .fontSize then
          match up with
          | q :: qs => .unit (mul v (pxOr16 (getStyle q qs .fontSize))) .px
          | [] => .unit (mul v sixteen) .px
        else .unit (mul v (pxOr16 (getStyle n up .fontSize))) .px
      | _ => raw
    | none =>
      if (p.meta F).inherited then
        match up with
        | q :: qs => getStyle q qs p
        | [] => (p.meta F).initial
      else (p.meta F).initial
termination_by (up.length, rank p)
decreasing_by
  · exact Prod.Lex.right _ (peer_rank h)
  · exact Prod.Lex.right _ (color_rank h)
  · exact Prod.Lex.left _ _ (by simp)
  · exact Prod.Lex.right _ (font_rank h)
  · exact Prod.Lex.left _ _ (by simp)

end Verif.Style
