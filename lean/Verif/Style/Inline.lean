import Verif.Style.Model

/-! # The `style` attribute

Model of `crates/gosub_render_pipeline/src/common/document/inline_style.rs` and of `NodeStyle`
(style.rs, same directory). Texts are lists of characters; Rust indexes them by UTF-8 bytes, and
cutting a text inside a character panics, which is `none` here. The value of a number
(`f32::from_str`) and the table of named colours (`named_color_hex`) are parameters; which texts are
numbers is modelled. -/

namespace Verif.Style

/-- What the model does not compute: the value of a text that is a number, the alpha byte
`(a * 255.0) as u8` of such a text or of 1 (inline_style.rs:75), and the hexadecimal value of a colour
name (gosub_shared/src/css_colors.rs:13-18). -/
structure Ext (F : Type) where
  value : List Char → F
  alpha : Option (List Char) → Nat
  named : List Char → Option (List Char)

/-- `char::is_whitespace`. -/
def ws (c : Char) : Bool :=
  (9 ≤ c.toNat && c.toNat ≤ 13) || c.toNat == 32 || c.toNat == 0x85 || c.toNat == 0xA0 ||
  c.toNat == 0x1680 || (0x2000 ≤ c.toNat && c.toNat ≤ 0x200A) || c.toNat == 0x2028 ||
  c.toNat == 0x2029 || c.toNat == 0x202F || c.toNat == 0x205F || c.toNat == 0x3000

/-- `str::trim`. -/
def trim (s : List Char) : List Char := ((s.dropWhile ws).reverse.dropWhile ws).reverse

/-- `str::split(c)`. -/
def splitAll (c : Char) : List Char → List (List Char)
  | [] => [[]]
  | x :: xs =>
    if x = c then [] :: splitAll c xs
    else match splitAll c xs with
      | [] => [[x]]
      | p :: ps => (x :: p) :: ps

/-- `str::split_once(c)`. -/
def splitOnce (c : Char) : List Char → Option (List Char × List Char)
  | [] => none
  | x :: xs => if x = c then some ([], xs) else (splitOnce c xs).map (fun p => (x :: p.1, p.2))

/-- `str::split_whitespace`. -/
def words : List Char → List (List Char)
  | [] => []
  | x :: xs =>
    if ws x then words xs
    else match xs with
      | [] => [[x]]
      | y :: _ =>
        if ws y then [x] :: words xs
        else match words xs with
          | [] => [[x]]
          | p :: ps => (x :: p) :: ps

/-- `str::contains`. -/
def holds (pat : List Char) : List Char → Bool
  | [] => pat.isEmpty
  | x :: xs => pat.isPrefixOf (x :: xs) || holds pat xs

/-- `cow_replace(pat, "")`, for a pattern that is not empty. -/
def remove (pat : List Char) : Nat → List Char → List Char
  | _, [] => []
  | 0, x :: xs =>
    if pat.isPrefixOf (x :: xs) then remove pat (pat.length - 1) xs else x :: remove pat 0 xs
  | k + 1, _ :: xs => remove pat k xs

/-- The letters of `to_ascii_lowercase`. -/
def lower (c : Char) : Char := if 65 ≤ c.toNat && c.toNat ≤ 90 then Char.ofNat (c.toNat + 32) else c

def isDigit (c : Char) : Bool := 48 ≤ c.toNat && c.toNat ≤ 57

/-- An exponent, or nothing, in the grammar of `f32::from_str`. -/
def isExp : List Char → Bool
  | [] => true
  | c :: cs =>
    (c == 'e' || c == 'E') &&
    (match cs with
     | '+' :: ds => !ds.isEmpty && ds.all isDigit
     | '-' :: ds => !ds.isEmpty && ds.all isDigit
     | ds => !ds.isEmpty && ds.all isDigit)

/-- A number without a sign in the grammar of `f32::from_str`: digits, with a point before, within or
after them, and an exponent; or one of three words. -/
def isUnsigned (s : List Char) : Bool :=
  let whole := s.takeWhile isDigit
  let rest := s.dropWhile isDigit
  (match rest with
   | '.' :: more =>
     let frac := more.takeWhile isDigit
     (!whole.isEmpty || !frac.isEmpty) && isExp (more.dropWhile isDigit)
   | _ => !whole.isEmpty && isExp rest) ||
  s.map lower == "inf".toList || s.map lower == "infinity".toList || s.map lower == "nan".toList

/-- The texts that `f32::from_str` accepts. -/
def isFloat : List Char → Bool
  | '+' :: s => isUnsigned s
  | '-' :: s => isUnsigned s
  | s => isUnsigned s

/-- `str::parse::<f32>`. -/
def float {F : Type} (x : Ext F) (s : List Char) : Option F := if isFloat s then some (x.value s) else none

/-- `str::parse::<u8>().unwrap_or(0)` (inline_style.rs:60-62, 72-74). -/
def byteOr0 (s : List Char) : Nat :=
  let ds := match s with
    | '+' :: ds => ds
    | ds => ds
  if !ds.isEmpty && ds.all isDigit then
    let n := ds.foldl (fun a c => a * 10 + (c.toNat - 48)) 0
    if n ≤ 255 then n else 0
  else 0

/-- `parse_style_value` (inline_style.rs:420-432). -/
def styleValue {F : Type} (x : Ext F) (s : List Char) : Value F :=
  match float x (remove "px".toList 0 s) with
  | some v => .unit v .px
  | none =>
    match float x (remove "__qem".toList 0 s) with
    | some v => .unit v .em
    | none =>
      match float x (remove "rem".toList 0 s) with
      | some v => .unit v .rem
      | none =>
        match float x (remove "em".toList 0 s) with
        | some v => .unit v .em
        | none => .keyword (String.ofList s)

/-- The number of bytes of a text in UTF-8 (`str::len`). -/
def bytes (s : List Char) : Nat := (s.map Char.utf8Size).sum

/-- `&s[..k]` and `&s[k..]`, which panic if byte `k` is not the start of a character. -/
def cutAt : Nat → List Char → Option (List Char × List Char)
  | 0, s => some ([], s)
  | _ + 1, [] => none
  | k + 1, c :: cs =>
    if c.utf8Size ≤ k + 1 then (cutAt (k + 1 - c.utf8Size) cs).map (fun p => (c :: p.1, p.2)) else none

/-- The value of a hexadecimal digit. -/
def hexDigit (c : Char) : Option Nat :=
  if 48 ≤ c.toNat && c.toNat ≤ 57 then some (c.toNat - 48)
  else if 97 ≤ c.toNat && c.toNat ≤ 102 then some (c.toNat - 87)
  else if 65 ≤ c.toNat && c.toNat ≤ 70 then some (c.toNat - 55)
  else none

/-- `u8::from_str_radix(s, 16)` for a text of at most two characters. A sign is allowed in front. -/
def hexByte (s : List Char) : Option Nat :=
  match s with
  | [c] => hexDigit c
  | ['+', d] => hexDigit d
  | [c, d] => (hexDigit c).bind (fun a => (hexDigit d).map (fun b => a * 16 + b))
  | _ => none

/-- `str::trim_start_matches('#')`. -/
def dropHashes (s : List Char) : List Char := s.dropWhile (· == '#')

/-- The cuts of a text at the given distances, all of which are made before any is looked at
(inline_style.rs:85-89, 94-99, 104-108). -/
def cuts : List Nat → List Char → Option (List (List Char))
  | [], _ => some []
  | k :: ks, s => (cutAt k s).bind (fun p => (cuts ks p.2).map (p.1 :: ·))

/-- `parse_hex_color` (inline_style.rs:81-115). `none` is a panic. -/
def hexColor {F : Type} (s : List Char) : Option (Value F) :=
  let hex := dropHashes s
  let kw : Value F := .keyword (String.ofList s)
  if bytes hex = 6 then
    (cuts [2, 2, 2] hex).map (fun l => match l.map hexByte with
      | [some r, some g, some b] => .color r g b 255
      | _ => kw)
  else if bytes hex = 8 then
    (cuts [2, 2, 2, 2] hex).map (fun l => match l.map hexByte with
      | [some r, some g, some b, some a] => .color r g b a
      | _ => kw)
  else if bytes hex = 3 then
    (cuts [1, 1, 1] hex).map (fun l => match l.map (fun p => hexByte (p ++ p)) with
      | [some r, some g, some b] => .color r g b 255
      | _ => kw)
  else some kw

/-- `trim_start_matches(pat)`, for a pattern that is not empty. -/
def dropPrefixes (pat : List Char) : Nat → List Char → List Char
  | 0, s => s
  | k + 1, s => if pat.isPrefixOf s then dropPrefixes pat k (s.drop pat.length) else s

/-- The text between the brackets, as `parse_rgb` and `parse_rgba` find it (inline_style.rs:57, 69). -/
def argsOf (pat s : List Char) : List (List Char) :=
  splitAll ',' ((dropPrefixes pat s.length s).reverse.dropWhile (· == ')')).reverse

/-- `parse_rgb` (inline_style.rs:56-66). -/
def rgbColor {F : Type} (s : List Char) : Value F :=
  match argsOf "rgb(".toList s with
  | [r, g, b] => .color (byteOr0 (trim r)) (byteOr0 (trim g)) (byteOr0 (trim b)) 255
  | _ => .keyword (String.ofList s)

/-- `parse_rgba` (inline_style.rs:68-79). -/
def rgbaColor {F : Type} (x : Ext F) (s : List Char) : Value F :=
  match argsOf "rgba(".toList s with
  | [r, g, b, a] => .color (byteOr0 (trim r)) (byteOr0 (trim g)) (byteOr0 (trim b))
      (x.alpha (if isFloat (trim a) then some (trim a) else none))
  | _ => .keyword (String.ofList s)

/-- `parse_named_color` (inline_style.rs:42-54). `none` is a panic. -/
def colorValue {F : Type} (x : Ext F) (s : List Char) : Option (Value F) :=
  if s.map lower = "transparent".toList then some (.color 0 0 0 0)
  else if "rgb(".toList.isPrefixOf s then some (rgbColor s)
  else if "rgba(".toList.isPrefixOf s then some (rgbaColor x s)
  else if "#".toList.isPrefixOf s then hexColor s
  else match x.named s with
    | some hex => hexColor hex
    | none => some (.keyword (String.ofList s))

/-- `NodeStyle` (style.rs:927-930): the values of a node, by the number of the property. -/
abbrev NodeStyle (F : Type) := List (Nat × Value F)

/-- `get_own` (style.rs:944-947). The binary search is a search for the number. -/
def NodeStyle.get {F : Type} (st : NodeStyle F) (p : Property) : Option (Value F) :=
  (st.find? (fun e => e.1 == p.id)).map Prod.snd

/-- `set` (style.rs:950-956): the value is replaced, or inserted where the numbers stay sorted. -/
def NodeStyle.set {F : Type} : NodeStyle F → Property → Value F → NodeStyle F
  | [], p, v => [(p.id, v)]
  | e :: st, p, v =>
    if e.1 = p.id then (p.id, v) :: st
    else if p.id < e.1 then (p.id, v) :: e :: st
    else e :: NodeStyle.set st p v

/-- Several `set`s in turn. -/
def NodeStyle.sets {F : Type} (st : NodeStyle F) (l : List (Property × Value F)) : NodeStyle F :=
  l.foldl (fun st e => st.set e.1 e.2) st

/-- `parse_box_shorthand` (inline_style.rs:117-143): the values of the four sides. -/
def boxValues {F : Type} (x : Ext F) (s : List Char) : List (Value F) :=
  match words s with
  | [a, b] => [styleValue x a, styleValue x b, styleValue x a, styleValue x b]
  | [a, b, c] => [styleValue x a, styleValue x b, styleValue x c, styleValue x b]
  | [a, b, c, d] => [styleValue x a, styleValue x b, styleValue x c, styleValue x d]
  | ps =>
    let v := styleValue x (ps.head?.getD s)
    [v, v, v, v]

/-- `parse_border_style` (inline_style.rs:434-448). -/
def borderStyleOf (s : String) : BorderStyle :=
  if s = "solid" then .solid else if s = "dashed" then .dashed else if s = "dotted" then .dotted
  else if s = "double" then .double else if s = "groove" then .groove else if s = "ridge" then .ridge
  else if s = "inset" then .inset else if s = "outset" then .outset else if s = "hidden" then .hidden
  else .none

/-- `is_border_style_keyword` (inline_style.rs:145-150). -/
def isBorderStyle (s : String) : Bool :=
  ["solid", "dashed", "dotted", "double", "groove", "ridge", "inset", "outset", "hidden", "none"].contains s

/-- `apply_border_shorthand` (inline_style.rs:152-189). `none` is a panic. -/
def borderParts {F : Type} [Num F] (x : Ext F) :
    List (List Char) → Value F × Value F × Value F → Option (Value F × Value F × Value F)
  | [], acc => some acc
  | w :: ws, (width, style, color) =>
    match styleValue x w with
    | .unit v u => borderParts x ws (.unit v u, style, color)
    | _ =>
      if isBorderStyle (String.ofList w) then
        borderParts x ws (width, .borderStyle (borderStyleOf (String.ofList w)), color)
      else (colorValue x w).bind (fun c => borderParts x ws (width, style, c))

/-- `parse_display` (inline_style.rs:390-409). -/
def displayValue {F : Type} (s : String) : Value F :=
  match ([("block", .block), ("inline", .inline), ("inline-block", .inlineBlock), ("none", .none),
      ("flex", .flex), ("inline-flex", .inlineFlex), ("grid", .grid), ("inline-grid", .inlineGrid),
      ("table", .table), ("table-caption", .tableCaption), ("table-cell", .tableCell),
      ("table-footer-group", .tableFooterGroup), ("table-header-group", .tableHeaderGroup),
      ("table-row", .tableRow), ("table-row-group", .tableRowGroup)] : List (String × Display)).lookup s with
  | some d => .display d
  | none => .keyword s

/-- `parse_css_url` (inline_style.rs:24-30): the text after the first `url(` up to the next `)`,
without the quotes and the blanks around it. -/
def urlOf (s : List Char) : Option (List Char) :=
  let rec after : List Char → Option (List Char)
    | [] => none
    | c :: cs => if "url(".toList.isPrefixOf (c :: cs) then some ((c :: cs).drop 4) else after cs
  let quote : Char → Bool := fun c => c == '"' || c == '\''
  (after s).bind (fun rest => (splitOnce ')' rest).bind (fun p =>
    let inner := trim (((trim p.1).dropWhile quote).reverse.dropWhile quote).reverse
    if inner.isEmpty then none else some inner))

/-- `parse_background_color_token` (inline_style.rs:32-40). The outer `none` is a panic. -/
def backgroundColor {F : Type} (x : Ext F) : List (List Char) → Option (Option (Value F))
  | [] => some none
  | w :: ws => (colorValue x w).bind (fun v => match v with
    | .color r g b a => some (some (.color r g b a))
    | _ => backgroundColor x ws)

/-- The keys of `apply_style_kv` whose value is read by `parse_style_value`
(inline_style.rs:203-217, 242-245, 254-257, 279, 282, 297, 312-315). -/
def lengthKeys : List (String × Property) :=
  [("width", .width), ("height", .height), ("max-width", .maxWidth), ("min-width", .minWidth),
   ("max-height", .maxHeight), ("min-height", .minHeight),
   ("border-top-width", .borderTopWidth), ("border-left-width", .borderLeftWidth),
   ("border-right-width", .borderRightWidth), ("border-bottom-width", .borderBottomWidth),
   ("border-bottom-left-radius", .borderBottomLeftRadius),
   ("border-bottom-right-radius", .borderBottomRightRadius),
   ("border-top-left-radius", .borderTopLeftRadius), ("border-top-right-radius", .borderTopRightRadius),
   ("margin-top", .marginTop), ("margin-block-start", .marginTop), ("margin-left", .marginLeft),
   ("margin-inline-start", .marginLeft), ("margin-right", .marginRight),
   ("margin-inline-end", .marginRight), ("margin-bottom", .marginBottom),
   ("margin-block-end", .marginBottom),
   ("padding-top", .paddingTop), ("padding-block-start", .paddingTop), ("padding-left", .paddingLeft),
   ("padding-inline-start", .paddingLeft), ("padding-right", .paddingRight),
   ("padding-inline-end", .paddingRight), ("padding-bottom", .paddingBottom),
   ("padding-block-end", .paddingBottom),
   ("font-size", .fontSize), ("flex-basis", .flexBasis), ("gap", .gap),
   ("top", .insetBlockStart), ("inset-block-start", .insetBlockStart),
   ("bottom", .insetBlockEnd), ("inset-block-end", .insetBlockEnd),
   ("left", .insetInlineStart), ("inset-inline-start", .insetInlineStart),
   ("right", .insetInlineEnd), ("inset-inline-end", .insetInlineEnd)]

/-- The keys whose value is read by `parse_named_color` (inline_style.rs:230-233, 261-262). -/
def colorKeys : List (String × Property) :=
  [("border-top-color", .borderTopColor), ("border-left-color", .borderLeftColor),
   ("border-right-color", .borderRightColor), ("border-bottom-color", .borderBottomColor),
   ("color", .color), ("background-color", .backgroundColor)]

/-- The keys whose value is read by `parse_border_style` (inline_style.rs:226-229). -/
def borderStyleKeys : List (String × Property) :=
  [("border-top-style", .borderTopStyle), ("border-right-style", .borderRightStyle),
   ("border-bottom-style", .borderBottomStyle), ("border-left-style", .borderLeftStyle)]

/-- The keys whose value is kept as a keyword (inline_style.rs:201, 278, 280, 283, 286, 288-294,
298-300, 317-326). -/
def keywordKeys : List (String × Property) :=
  [("position", .position), ("font-style", .fontStyle), ("font-family", .fontFamily),
   ("flex-direction", .flexDirection), ("flex-wrap", .flexWrap),
   ("grid-template-columns", .gridTemplateColumns), ("grid-template-rows", .gridTemplateRows),
   ("grid-auto-columns", .gridAutoColumns), ("grid-auto-rows", .gridAutoRows),
   ("grid-auto-flow", .gridAutoFlow), ("grid-column", .gridColumn), ("grid-row", .gridRow),
   ("align-items", .alignItems), ("align-self", .alignSelf), ("align-content", .alignContent),
   ("justify-items", .justifyItems), ("justify-self", .justifySelf), ("justify-content", .justifyContent),
   ("overflow-x", .overflowX), ("overflow-y", .overflowY), ("box-sizing", .boxSizing),
   ("white-space", .whiteSpace), ("text-transform", .textTransform), ("mix-blend-mode", .mixBlendMode)]

/-- The keys whose value is read by `parse_style_num` or as a number otherwise (inline_style.rs:284-285,
296, 303-309; `parse_style_num`, 382-388). -/
def numberKeys : List (String × Property) :=
  [("flex-grow", .flexGrow), ("flex-shrink", .flexShrink), ("aspect-ratio", .aspectRatio),
   ("z-index", .zIndex)]

/-- `apply_style_kv` (inline_style.rs:191-344). `none` is a panic. Left out: `font-weight`,
`text-align`, `line-height`, `text-wrap` and `text-decoration`, which are ignored here. -/
def applyKv {F : Type} [Num F] (x : Ext F) (st : NodeStyle F) (key : String) (s : List Char) :
    Option (NodeStyle F) :=
  if holds "var(".toList (s.map lower) then some st
  else match lengthKeys.lookup key with
  | some p => some (st.set p (styleValue x s))
  | none => match colorKeys.lookup key with
  | some p => (colorValue x s).map (st.set p)
  | none => match borderStyleKeys.lookup key with
  | some p => some (st.set p (.borderStyle (borderStyleOf (String.ofList s))))
  | none => match keywordKeys.lookup key with
  | some p => some (st.set p (.keyword (String.ofList s)))
  | none => match numberKeys.lookup key with
  | some p => some (st.set p (match float x s with
      | some v => .number v
      | none => .keyword (String.ofList s)))
  | none =>
    if key = "display" then some (st.set .display (displayValue (String.ofList s)))
    else if key = "margin" then
      some (st.sets ([Property.marginTop, .marginRight, .marginBottom, .marginLeft].zip (boxValues x s)))
    else if key = "padding" then
      some (st.sets ([Property.paddingTop, .paddingRight, .paddingBottom, .paddingLeft].zip
        (boxValues x s)))
    else if key = "border-radius" then
      some (st.sets ([Property.borderTopLeftRadius, .borderTopRightRadius, .borderBottomRightRadius,
        .borderBottomLeftRadius].zip (boxValues x (trim (s.takeWhile (· != '/'))))))
    else if key = "border" then
      (borderParts x (words s) (.unit three .px, .borderStyle .none, .color 0 0 0 255)).map
        (fun b => st.sets
          [(.borderTopWidth, b.1), (.borderRightWidth, b.1), (.borderBottomWidth, b.1),
           (.borderLeftWidth, b.1), (.borderTopStyle, b.2.1), (.borderRightStyle, b.2.1),
           (.borderBottomStyle, b.2.1), (.borderLeftStyle, b.2.1), (.borderTopColor, b.2.2),
           (.borderRightColor, b.2.2), (.borderBottomColor, b.2.2), (.borderLeftColor, b.2.2)])
    else if key = "background" then
      (backgroundColor x (words s)).map (fun c =>
        let st := match c with
          | some v => st.set .backgroundColor v
          | none => st
        match urlOf s with
        | some u => st.set .backgroundImage (.keyword (String.ofList u))
        | none => st)
    else if key = "background-image" then
      some (match urlOf s with
        | some u => st.set .backgroundImage (.keyword (String.ofList u))
        | none => st)
    else some st

/-- One part of a `style` attribute (inline_style.rs:12-18). -/
def declaration {F : Type} [Num F] (x : Ext F) (st : NodeStyle F) (d : List Char) : Option (NodeStyle F) :=
  let d := trim d
  if d.isEmpty then some st
  else match splitOnce ':' d with
    | some (k, v) => applyKv x st (String.ofList (trim k)) (trim v)
    | none => some st

/-- The loop of `parse_inline_style_attr` (inline_style.rs:11-19). -/
def declarations {F : Type} [Num F] (x : Ext F) : NodeStyle F → List (List Char) → Option (NodeStyle F)
  | st, [] => some st
  | st, d :: ds => (declaration x st d).bind (fun st => declarations x st ds)

/-- `parse_inline_style_attr` (inline_style.rs:9-21). `none` is a panic. -/
def styleAttr {F : Type} [Num F] (x : Ext F) (s : List Char) : Option (NodeStyle F) :=
  declarations x [] (splitAll ';' s)

end Verif.Style
