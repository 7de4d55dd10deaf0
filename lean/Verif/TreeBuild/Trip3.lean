import Verif.TreeBuild.Trip2

/-!
# C106: which handler a tag gets
-/
namespace Verif.TreeBuild
open Verif Verif.Dom

/-! ## Kinds of elements -/

/-- blocks other than `p` -/
def blocks : List Str :=
  names ["address", "article", "aside", "blockquote", "center", "details", "dialog", "dir", "div", "dl", "fieldset",
    "figcaption", "figure", "footer", "header", "hgroup", "main", "menu", "nav", "ol", "search", "section", "summary", "ul"]
/-- formatting elements other than `a` and `nobr` -/
def formats : List Str := names ["b", "big", "code", "em", "font", "i", "s", "small", "strike", "strong", "tt", "u"]
/-- elements that set a marker -/
def objects : List Str := names ["applet", "marquee", "object"]

/-- all names that get a treatment of their own -/
def special : List Str :=
  notFlow ++ voids ++ texts ++ blocks ++ heads ++ formats ++ objects ++
    names ["p", "form", "li", "dd", "dt", "button", "a"]

inductive Kind2 (n : Str) : Prop
  | block (h : n ∈ blocks)
  | para (h : n = "p".toList)
  | heading (h : n ∈ heads)
  | form (h : n = "form".toList)
  | item (h : n = "li".toList)
  | term (h : n ∈ names ["dd", "dt"])
  | button (h : n = "button".toList)
  | link (h : n = "a".toList)
  | format (h : n ∈ formats)
  | object (h : n ∈ objects)
  | other (h : n ∉ special)

theorem kind2 {n : Str} (h1 : n ∉ notFlow) (h2 : n ∉ voids) (h3 : n ∉ texts) : Kind2 n := by
  by_cases h4 : n ∈ blocks
  · exact .block h4
  by_cases h5 : n ∈ heads
  · exact .heading h5
  by_cases h6 : n ∈ formats
  · exact .format h6
  by_cases h7 : n ∈ objects
  · exact .object h7
  by_cases h8 : n ∈ names ["dd", "dt"]
  · exact .term h8
  by_cases h9 : n = "p".toList
  · exact .para h9
  by_cases h10 : n = "form".toList
  · exact .form h10
  by_cases h11 : n = "li".toList
  · exact .item h11
  by_cases h12 : n = "button".toList
  · exact .button h12
  by_cases h13 : n = "a".toList
  · exact .link h13
  refine .other ?_
  unfold special
  simp only [List.mem_append, not_or]
  refine ⟨⟨⟨⟨⟨⟨⟨h1, h2⟩, h3⟩, h4⟩, h5⟩, h6⟩, h7⟩, ?_⟩
  simp only [names, List.map_cons, List.map_nil, List.mem_cons, List.not_mem_nil, or_false, not_or] at h8 ⊢
  exact ⟨h9, h10, h11, h8.1, h8.2, h12, h13⟩

theorem oneOf_mem {n : Str} {l : List String} : oneOf n l = true ↔ n ∈ names l := by
  rw [oneOf_iff]
  simp only [names, List.mem_map]
  exact ⟨fun ⟨k, h1, h2⟩ => ⟨k, h1, h2.symm⟩, fun ⟨k, h1, h2⟩ => ⟨k, h1, h2.symm⟩⟩

theorem oneOf_avoid {n : Str} {l : List String} {bad : List Str} (h : n ∉ bad) (hl : ∀ m ∈ names l, m ∈ bad) : oneOf n l = false := by
  rw [Bool.eq_false_iff]
  intro ho
  exact h (hl n (oneOf_mem.1 ho))

theorem is_avoid {n : Str} {k : String} {bad : List Str} (h : n ∉ bad) (hk : k.toList ∈ bad) : is n k = false :=
  is_not fun he => h (he ▸ hk)

/-! ## Start tags in the body -/

section
variable (env : Env) (sc : Bool) (as : Attrs) {n : Str}

theorem start_block (h : n ∈ "p".toList :: blocks) : inBodyStart env n sc as = fin (do
    closePInScope
    insert_ n as) := by
  have key : ∀ m ∈ "p".toList :: blocks, is m "html" = false ∧ oneOf m headNames = false ∧ is m "body" = false ∧
      is m "frameset" = false ∧ oneOf m blockStart = true := by decide +kernel
  obtain ⟨h1, h2, h3, h4, h5⟩ := key n h
  simp only [inBodyStart, h1, h2, h3, h4, h5, Bool.false_eq_true, if_false, if_true]

theorem start_heading (h : n ∈ heads) : inBodyStart env n sc as = fin (do
    closePInScope
    whenM (fun s => oneOf (curTag s) headings) pop
    insert_ n as) := by
  have key : ∀ m ∈ heads, is m "html" = false ∧ oneOf m headNames = false ∧ is m "body" = false ∧
      is m "frameset" = false ∧ oneOf m blockStart = false ∧ oneOf m headings = true := by decide +kernel
  obtain ⟨h1, h2, h3, h4, h5, h6⟩ := key n h
  simp only [inBodyStart, h1, h2, h3, h4, h5, h6, Bool.false_eq_true, if_false, if_true]

theorem start_form : inBodyStart env "form".toList sc as = startForm "form".toList as := by
  have key : ∀ m ∈ names ["form"], is m "html" = false ∧ oneOf m headNames = false ∧ is m "body" = false ∧
      is m "frameset" = false ∧ oneOf m blockStart = false ∧ oneOf m headings = false ∧ oneOf m ["pre", "listing"] = false ∧
      is m "form" = true := by decide +kernel
  obtain ⟨h1, h2, h3, h4, h5, h6, h7, h8⟩ := key "form".toList (by decide)
  simp only [inBodyStart, h1, h2, h3, h4, h5, h6, h7, h8, Bool.false_eq_true, if_false, if_true]

theorem start_li : inBodyStart env "li".toList sc as = startItem ["li"] "li".toList as := by
  have key : ∀ m ∈ names ["li"], is m "html" = false ∧ oneOf m headNames = false ∧ is m "body" = false ∧
      is m "frameset" = false ∧ oneOf m blockStart = false ∧ oneOf m headings = false ∧ oneOf m ["pre", "listing"] = false ∧
      is m "form" = false ∧ is m "li" = true := by decide +kernel
  obtain ⟨h1, h2, h3, h4, h5, h6, h7, h8, h9⟩ := key "li".toList (by decide)
  simp only [inBodyStart, h1, h2, h3, h4, h5, h6, h7, h8, h9, Bool.false_eq_true, if_false, if_true]

theorem start_term (h : n ∈ names ["dd", "dt"]) : inBodyStart env n sc as = startItem ["dd", "dt"] n as := by
  have key : ∀ m ∈ names ["dd", "dt"], is m "html" = false ∧ oneOf m headNames = false ∧ is m "body" = false ∧
      is m "frameset" = false ∧ oneOf m blockStart = false ∧ oneOf m headings = false ∧ oneOf m ["pre", "listing"] = false ∧
      is m "form" = false ∧ is m "li" = false ∧ oneOf m ["dd", "dt"] = true := by decide +kernel
  obtain ⟨h1, h2, h3, h4, h5, h6, h7, h8, h9, h10⟩ := key n h
  simp only [inBodyStart, h1, h2, h3, h4, h5, h6, h7, h8, h9, h10, Bool.false_eq_true, if_false, if_true]

theorem start_button : inBodyStart env "button".toList sc as = fin (do
    whenM (inScopeS "button" .regular) (do
      implied none false
      popNamed "button".toList)
    reconstruct
    insert_ "button".toList as
    noFrameset) := by
  have key : ∀ m ∈ names ["button"], is m "html" = false ∧ oneOf m headNames = false ∧ is m "body" = false ∧
      is m "frameset" = false ∧ oneOf m blockStart = false ∧ oneOf m headings = false ∧ oneOf m ["pre", "listing"] = false ∧
      is m "form" = false ∧ is m "li" = false ∧ oneOf m ["dd", "dt"] = false ∧ is m "plaintext" = false ∧ is m "button" = true := by
    decide +kernel
  obtain ⟨h1, h2, h3, h4, h5, h6, h7, h8, h9, h10, h11, h12⟩ := key "button".toList (by decide)
  simp only [inBodyStart, h1, h2, h3, h4, h5, h6, h7, h8, h9, h10, h11, h12, Bool.false_eq_true, if_false, if_true]

theorem start_a : inBodyStart env "a".toList sc as = startA "a".toList as := by
  have key : ∀ m ∈ names ["a"], is m "html" = false ∧ oneOf m headNames = false ∧ is m "body" = false ∧
      is m "frameset" = false ∧ oneOf m blockStart = false ∧ oneOf m headings = false ∧ oneOf m ["pre", "listing"] = false ∧
      is m "form" = false ∧ is m "li" = false ∧ oneOf m ["dd", "dt"] = false ∧ is m "plaintext" = false ∧ is m "button" = false ∧
      is m "a" = true := by
    decide +kernel
  obtain ⟨h1, h2, h3, h4, h5, h6, h7, h8, h9, h10, h11, h12, h13⟩ := key "a".toList (by decide)
  simp only [inBodyStart, h1, h2, h3, h4, h5, h6, h7, h8, h9, h10, h11, h12, h13, Bool.false_eq_true, if_false, if_true]

theorem start_format (h : n ∈ formats) : inBodyStart env n sc as = startFormatting n as := by
  have key : ∀ m ∈ formats, is m "html" = false ∧ oneOf m headNames = false ∧ is m "body" = false ∧
      is m "frameset" = false ∧ oneOf m blockStart = false ∧ oneOf m headings = false ∧ oneOf m ["pre", "listing"] = false ∧
      is m "form" = false ∧ is m "li" = false ∧ oneOf m ["dd", "dt"] = false ∧ is m "plaintext" = false ∧ is m "button" = false ∧
      is m "a" = false ∧ oneOf m formattingStart = true := by
    decide +kernel
  obtain ⟨h1, h2, h3, h4, h5, h6, h7, h8, h9, h10, h11, h12, h13, h14⟩ := key n h
  simp only [inBodyStart, h1, h2, h3, h4, h5, h6, h7, h8, h9, h10, h11, h12, h13, h14, Bool.false_eq_true, if_false, if_true]

theorem start_object (h : n ∈ objects) : inBodyStart env n sc as = fin (do
    reconstruct
    insert_ n as
    pushMarker
    noFrameset) := by
  have key : ∀ m ∈ objects, is m "html" = false ∧ oneOf m headNames = false ∧ is m "body" = false ∧
      is m "frameset" = false ∧ oneOf m blockStart = false ∧ oneOf m headings = false ∧ oneOf m ["pre", "listing"] = false ∧
      is m "form" = false ∧ is m "li" = false ∧ oneOf m ["dd", "dt"] = false ∧ is m "plaintext" = false ∧ is m "button" = false ∧
      is m "a" = false ∧ oneOf m formattingStart = false ∧ is m "nobr" = false ∧ oneOf m ["applet", "marquee", "object"] = true := by
    decide +kernel
  obtain ⟨h1, h2, h3, h4, h5, h6, h7, h8, h9, h10, h11, h12, h13, h14, h15, h16⟩ := key n h
  simp only [inBodyStart, h1, h2, h3, h4, h5, h6, h7, h8, h9, h10, h11, h12, h13, h14, h15, h16, Bool.false_eq_true, if_false,
    if_true]

theorem start_table : inBodyStart env "table".toList sc as = fin (do
    whenM (fun s => !s.quirks) closePInScope
    insert_ "table".toList as
    noFrameset
    setMode .inTable) := by
  have key : ∀ m ∈ names ["table"], is m "html" = false ∧ oneOf m headNames = false ∧ is m "body" = false ∧
      is m "frameset" = false ∧ oneOf m blockStart = false ∧ oneOf m headings = false ∧ oneOf m ["pre", "listing"] = false ∧
      is m "form" = false ∧ is m "li" = false ∧ oneOf m ["dd", "dt"] = false ∧ is m "plaintext" = false ∧ is m "button" = false ∧
      is m "a" = false ∧ oneOf m formattingStart = false ∧ is m "nobr" = false ∧ oneOf m ["applet", "marquee", "object"] = false ∧
      is m "table" = true := by
    decide +kernel
  obtain ⟨h1, h2, h3, h4, h5, h6, h7, h8, h9, h10, h11, h12, h13, h14, h15, h16, h17⟩ := key "table".toList (by decide)
  simp only [inBodyStart, h1, h2, h3, h4, h5, h6, h7, h8, h9, h10, h11, h12, h13, h14, h15, h16, h17, Bool.false_eq_true, if_false,
    if_true]

/-- the tests that come before the one for elements without content -/
def Before (m : Str) : Bool :=
  is m "html" || oneOf m headNames || is m "body" || is m "frameset" || oneOf m blockStart || oneOf m headings ||
    oneOf m ["pre", "listing"] || is m "form" || is m "li" || oneOf m ["dd", "dt"] || is m "plaintext" || is m "button" ||
    is m "a" || oneOf m formattingStart || is m "nobr" || oneOf m ["applet", "marquee", "object"] || is m "table"

theorem before_elim {m : Str} (h : Before m = false) : is m "html" = false ∧ oneOf m headNames = false ∧ is m "body" = false ∧
    is m "frameset" = false ∧ oneOf m blockStart = false ∧ oneOf m headings = false ∧ oneOf m ["pre", "listing"] = false ∧
    is m "form" = false ∧ is m "li" = false ∧ oneOf m ["dd", "dt"] = false ∧ is m "plaintext" = false ∧ is m "button" = false ∧
    is m "a" = false ∧ oneOf m formattingStart = false ∧ is m "nobr" = false ∧ oneOf m ["applet", "marquee", "object"] = false ∧
    is m "table" = false := by
  simp only [Before, Bool.or_eq_false_iff] at h
  obtain ⟨⟨⟨⟨⟨⟨⟨⟨⟨⟨⟨⟨⟨⟨⟨⟨h1, h2⟩, h3⟩, h4⟩, h5⟩, h6⟩, h7⟩, h8⟩, h9⟩, h10⟩, h11⟩, h12⟩, h13⟩, h14⟩, h15⟩, h16⟩, h17⟩ := h
  exact ⟨h1, h2, h3, h4, h5, h6, h7, h8, h9, h10, h11, h12, h13, h14, h15, h16, h17⟩

theorem start_image (h : n ∈ names ["area", "br", "embed", "img", "keygen", "wbr"]) : inBodyStart env n sc as = fin (do
    reconstruct
    insertVoid n as
    noFrameset) := by
  have key : ∀ m ∈ names ["area", "br", "embed", "img", "keygen", "wbr"], Before m = false ∧
      oneOf m ["area", "br", "embed", "img", "keygen", "wbr"] = true := by decide +kernel
  obtain ⟨h0, h18⟩ := key n h
  obtain ⟨h1, h2, h3, h4, h5, h6, h7, h8, h9, h10, h11, h12, h13, h14, h15, h16, h17⟩ := before_elim h0
  simp only [inBodyStart, h1, h2, h3, h4, h5, h6, h7, h8, h9, h10, h11, h12, h13, h14, h15, h16, h17, h18, Bool.false_eq_true,
    if_false, if_true]

theorem start_input : inBodyStart env "input".toList sc as = fin (do
    reconstruct
    insertVoid "input".toList as
    if notHidden as then noFrameset else pure ()) := by
  have key : ∀ m ∈ names ["input"], Before m = false ∧ oneOf m ["area", "br", "embed", "img", "keygen", "wbr"] = false ∧
      is m "input" = true := by decide +kernel
  obtain ⟨h0, h18, h19⟩ := key "input".toList (by decide)
  obtain ⟨h1, h2, h3, h4, h5, h6, h7, h8, h9, h10, h11, h12, h13, h14, h15, h16, h17⟩ := before_elim h0
  simp only [inBodyStart, h1, h2, h3, h4, h5, h6, h7, h8, h9, h10, h11, h12, h13, h14, h15, h16, h17, h18, h19,
    Bool.false_eq_true, if_false, if_true]

theorem start_source (h : n ∈ names ["param", "source", "track"]) : inBodyStart env n sc as = fin (insertVoid n as) := by
  have key : ∀ m ∈ names ["param", "source", "track"], Before m = false ∧
      oneOf m ["area", "br", "embed", "img", "keygen", "wbr"] = false ∧
      is m "input" = false ∧ oneOf m ["param", "source", "track"] = true := by decide +kernel
  obtain ⟨h0, h18, h19, h20⟩ := key n h
  obtain ⟨h1, h2, h3, h4, h5, h6, h7, h8, h9, h10, h11, h12, h13, h14, h15, h16, h17⟩ := before_elim h0
  simp only [inBodyStart, h1, h2, h3, h4, h5, h6, h7, h8, h9, h10, h11, h12, h13, h14, h15, h16, h17, h18, h19, h20,
    Bool.false_eq_true, if_false, if_true]

theorem start_hr : inBodyStart env "hr".toList sc as = fin (do
    closePInScope
    insertVoid "hr".toList as
    noFrameset) := by
  have key : ∀ m ∈ names ["hr"], Before m = false ∧ oneOf m ["area", "br", "embed", "img", "keygen", "wbr"] = false ∧
      is m "input" = false ∧ oneOf m ["param", "source", "track"] = false ∧ is m "hr" = true := by decide +kernel
  obtain ⟨h0, h18, h19, h20, h21⟩ := key "hr".toList (by decide)
  obtain ⟨h1, h2, h3, h4, h5, h6, h7, h8, h9, h10, h11, h12, h13, h14, h15, h16, h17⟩ := before_elim h0
  simp only [inBodyStart, h1, h2, h3, h4, h5, h6, h7, h8, h9, h10, h11, h12, h13, h14, h15, h16, h17, h18, h19, h20, h21,
    Bool.false_eq_true, if_false, if_true]

theorem start_xmp : inBodyStart env "xmp".toList sc as = fin (do
    closePInScope
    reconstruct
    noFrameset
    rawData "xmp".toList as) := by
  have key : ∀ m ∈ names ["xmp"], Before m = false ∧ oneOf m ["area", "br", "embed", "img", "keygen", "wbr"] = false ∧
      is m "input" = false ∧ oneOf m ["param", "source", "track"] = false ∧ is m "hr" = false ∧ is m "image" = false ∧
      is m "textarea" = false ∧ is m "xmp" = true := by decide +kernel
  obtain ⟨h0, h18, h19, h20, h21, h22, h23, h24⟩ := key "xmp".toList (by decide)
  obtain ⟨h1, h2, h3, h4, h5, h6, h7, h8, h9, h10, h11, h12, h13, h14, h15, h16, h17⟩ := before_elim h0
  simp only [inBodyStart, h1, h2, h3, h4, h5, h6, h7, h8, h9, h10, h11, h12, h13, h14, h15, h16, h17, h18, h19, h20, h21, h22,
    h23, h24, Bool.false_eq_true, if_false, if_true]

theorem start_iframe : inBodyStart env "iframe".toList sc as = fin (do
    noFrameset
    rawData "iframe".toList as) := by
  have key : ∀ m ∈ names ["iframe"], Before m = false ∧ oneOf m ["area", "br", "embed", "img", "keygen", "wbr"] = false ∧
      is m "input" = false ∧ oneOf m ["param", "source", "track"] = false ∧ is m "hr" = false ∧ is m "image" = false ∧
      is m "textarea" = false ∧ is m "xmp" = false ∧ is m "iframe" = true := by decide +kernel
  obtain ⟨h0, h18, h19, h20, h21, h22, h23, h24, h25⟩ := key "iframe".toList (by decide)
  obtain ⟨h1, h2, h3, h4, h5, h6, h7, h8, h9, h10, h11, h12, h13, h14, h15, h16, h17⟩ := before_elim h0
  simp only [inBodyStart, h1, h2, h3, h4, h5, h6, h7, h8, h9, h10, h11, h12, h13, h14, h15, h16, h17, h18, h19, h20, h21, h22,
    h23, h24, h25, Bool.false_eq_true, if_false, if_true]

theorem start_noembed : inBodyStart env "noembed".toList sc as = fin (rawData "noembed".toList as) := by
  have key : ∀ m ∈ names ["noembed"], Before m = false ∧ oneOf m ["area", "br", "embed", "img", "keygen", "wbr"] = false ∧
      is m "input" = false ∧ oneOf m ["param", "source", "track"] = false ∧ is m "hr" = false ∧ is m "image" = false ∧
      is m "textarea" = false ∧ is m "xmp" = false ∧ is m "iframe" = false ∧ is m "noembed" = true := by decide +kernel
  obtain ⟨h0, h18, h19, h20, h21, h22, h23, h24, h25, h26⟩ := key "noembed".toList (by decide)
  obtain ⟨h1, h2, h3, h4, h5, h6, h7, h8, h9, h10, h11, h12, h13, h14, h15, h16, h17⟩ := before_elim h0
  simp only [inBodyStart, h1, h2, h3, h4, h5, h6, h7, h8, h9, h10, h11, h12, h13, h14, h15, h16, h17, h18, h19, h20, h21, h22,
    h23, h24, h25, h26, Bool.false_eq_true, if_false, if_true]

theorem start_head (h : n ∈ inTheHead) : inBodyStart env n sc as = inHead env (.startTag n sc as) := by
  have key : ∀ m ∈ inTheHead, is m "html" = false ∧ oneOf m headNames = true := by decide +kernel
  obtain ⟨h1, h2⟩ := key n h
  simp only [inBodyStart, h1, h2, Bool.false_eq_true, if_false, if_true]

theorem start_other (h : n ∉ special) : inBodyStart env n sc as = fin (do
    reconstruct
    insert_ n as) := by
  have a : ∀ {l : List String}, (∀ m ∈ names l, m ∈ special) → oneOf n l = false := fun hl => oneOf_avoid h hl
  have i : ∀ {k : String}, k.toList ∈ special → is n k = false := fun hk => is_avoid h hk
  have h1 : is n "html" = false := i (by decide +kernel)
  have h2 : oneOf n headNames = false := a (by decide +kernel)
  have h3 : is n "body" = false := i (by decide +kernel)
  have h4 : is n "frameset" = false := i (by decide +kernel)
  have h5 : oneOf n blockStart = false := a (by decide +kernel)
  have h6 : oneOf n headings = false := a (by decide +kernel)
  have h7 : oneOf n ["pre", "listing"] = false := a (by decide +kernel)
  have h8 : is n "form" = false := i (by decide +kernel)
  have h9 : is n "li" = false := i (by decide +kernel)
  have h10 : oneOf n ["dd", "dt"] = false := a (by decide +kernel)
  have h11 : is n "plaintext" = false := i (by decide +kernel)
  have h12 : is n "button" = false := i (by decide +kernel)
  have h13 : is n "a" = false := i (by decide +kernel)
  have h14 : oneOf n formattingStart = false := a (by decide +kernel)
  have h15 : is n "nobr" = false := i (by decide +kernel)
  have h16 : oneOf n ["applet", "marquee", "object"] = false := a (by decide +kernel)
  have h17 : is n "table" = false := i (by decide +kernel)
  have h18 : oneOf n ["area", "br", "embed", "img", "keygen", "wbr"] = false := a (by decide +kernel)
  have h19 : is n "input" = false := i (by decide +kernel)
  have h20 : oneOf n ["param", "source", "track"] = false := a (by decide +kernel)
  have h21 : is n "hr" = false := i (by decide +kernel)
  have h22 : is n "image" = false := i (by decide +kernel)
  have h23 : is n "textarea" = false := i (by decide +kernel)
  have h24 : is n "xmp" = false := i (by decide +kernel)
  have h25 : is n "iframe" = false := i (by decide +kernel)
  have h26 : is n "noembed" = false := i (by decide +kernel)
  have h27 : is n "noscript" = false := i (by decide +kernel)
  have h28 : is n "select" = false := i (by decide +kernel)
  have h29 : oneOf n ["optgroup", "option"] = false := a (by decide +kernel)
  have h30 : oneOf n ["rb", "rtc"] = false := a (by decide +kernel)
  have h31 : oneOf n ["rp", "rt"] = false := a (by decide +kernel)
  have h32 : is n "math" = false := i (by decide +kernel)
  have h33 : is n "svg" = false := i (by decide +kernel)
  have h34 : oneOf n misplaced = false := a (by decide +kernel)
  simp only [inBodyStart, h1, h2, h3, h4, h5, h6, h7, h8, h9, h10, h11, h12, h13, h14, h15, h16, h17, h18, h19, h20, h21, h22,
    h23, h24, h25, h26, h27, h28, h29, h30, h31, h32, h33, h34, Bool.false_eq_true, if_false, Bool.false_and]

/-! ## End tags in the body -/

theorem end_block (h : n ∈ "button".toList :: blocks) : inBodyEnd n = endBlock n .regular none (pure ()) := by
  have key : ∀ m ∈ "button".toList :: blocks, is m "template" = false ∧ is m "body" = false ∧ is m "html" = false ∧
      oneOf m blockEnd = true := by decide +kernel
  obtain ⟨h1, h2, h3, h4⟩ := key n h
  simp only [inBodyEnd, h1, h2, h3, h4, Bool.false_eq_true, if_false, if_true]

theorem end_form : inBodyEnd "form".toList = endForm "form".toList := by
  have key : ∀ m ∈ names ["form"], is m "template" = false ∧ is m "body" = false ∧ is m "html" = false ∧
      oneOf m blockEnd = false ∧ is m "form" = true := by decide +kernel
  obtain ⟨h1, h2, h3, h4, h5⟩ := key "form".toList (by decide)
  simp only [inBodyEnd, h1, h2, h3, h4, h5, Bool.false_eq_true, if_false, if_true]

theorem end_p : inBodyEnd "p".toList = fin (do
    ifM (inScope "p".toList .button) (pure ()) (insert_ "p".toList [])
    closeP) := by
  have key : ∀ m ∈ names ["p"], is m "template" = false ∧ is m "body" = false ∧ is m "html" = false ∧
      oneOf m blockEnd = false ∧ is m "form" = false ∧ is m "p" = true := by decide +kernel
  obtain ⟨h1, h2, h3, h4, h5, h6⟩ := key "p".toList (by decide)
  simp only [inBodyEnd, h1, h2, h3, h4, h5, h6, Bool.false_eq_true, if_false, if_true]

theorem end_li : inBodyEnd "li".toList = endBlock "li".toList .listItem (some "li".toList) (pure ()) := by
  have key : ∀ m ∈ names ["li"], is m "template" = false ∧ is m "body" = false ∧ is m "html" = false ∧
      oneOf m blockEnd = false ∧ is m "form" = false ∧ is m "p" = false ∧ is m "li" = true := by decide +kernel
  obtain ⟨h1, h2, h3, h4, h5, h6, h7⟩ := key "li".toList (by decide)
  simp only [inBodyEnd, h1, h2, h3, h4, h5, h6, h7, Bool.false_eq_true, if_false, if_true]

theorem end_term (h : n ∈ names ["dd", "dt"]) : inBodyEnd n = endBlock n .regular (some n) (pure ()) := by
  have key : ∀ m ∈ names ["dd", "dt"], is m "template" = false ∧ is m "body" = false ∧ is m "html" = false ∧
      oneOf m blockEnd = false ∧ is m "form" = false ∧ is m "p" = false ∧ is m "li" = false ∧ oneOf m ["dd", "dt"] = true := by
    decide +kernel
  obtain ⟨h1, h2, h3, h4, h5, h6, h7, h8⟩ := key n h
  simp only [inBodyEnd, h1, h2, h3, h4, h5, h6, h7, h8, Bool.false_eq_true, if_false, if_true]

theorem end_heading (h : n ∈ heads) : inBodyEnd n =
    ifM (fun s => headings.any fun h => inScopeS h .regular s) (fin (do
      implied (some n) false
      popAny headings)) ignore := by
  have key : ∀ m ∈ heads, is m "template" = false ∧ is m "body" = false ∧ is m "html" = false ∧
      oneOf m blockEnd = false ∧ is m "form" = false ∧ is m "p" = false ∧ is m "li" = false ∧ oneOf m ["dd", "dt"] = false ∧
      oneOf m headings = true := by
    decide +kernel
  obtain ⟨h1, h2, h3, h4, h5, h6, h7, h8, h9⟩ := key n h
  simp only [inBodyEnd, h1, h2, h3, h4, h5, h6, h7, h8, h9, Bool.false_eq_true, if_false, if_true]

theorem end_format (h : n ∈ "a".toList :: formats) : inBodyEnd n = fin (adoption n) := by
  have key : ∀ m ∈ "a".toList :: formats, is m "template" = false ∧ is m "body" = false ∧ is m "html" = false ∧
      oneOf m blockEnd = false ∧ is m "form" = false ∧ is m "p" = false ∧ is m "li" = false ∧ oneOf m ["dd", "dt"] = false ∧
      oneOf m headings = false ∧ is m "sarcasm" = false ∧ oneOf m formattingEnd = true := by
    decide +kernel
  obtain ⟨h1, h2, h3, h4, h5, h6, h7, h8, h9, h10, h11⟩ := key n h
  simp only [inBodyEnd, h1, h2, h3, h4, h5, h6, h7, h8, h9, h10, h11, Bool.false_eq_true, if_false, if_true]

theorem end_object (h : n ∈ objects) : inBodyEnd n = endBlock n .regular none clearMarker := by
  have key : ∀ m ∈ objects, is m "template" = false ∧ is m "body" = false ∧ is m "html" = false ∧
      oneOf m blockEnd = false ∧ is m "form" = false ∧ is m "p" = false ∧ is m "li" = false ∧ oneOf m ["dd", "dt"] = false ∧
      oneOf m headings = false ∧ is m "sarcasm" = false ∧ oneOf m formattingEnd = false ∧
      oneOf m ["applet", "marquee", "object"] = true := by
    decide +kernel
  obtain ⟨h1, h2, h3, h4, h5, h6, h7, h8, h9, h10, h11, h12⟩ := key n h
  simp only [inBodyEnd, h1, h2, h3, h4, h5, h6, h7, h8, h9, h10, h11, h12, Bool.false_eq_true, if_false, if_true]

theorem end_other (h : n ∉ special) : inBodyEnd n = fin (otherEndTag n) := by
  have a : ∀ {l : List String}, (∀ m ∈ names l, m ∈ special) → oneOf n l = false := fun hl => oneOf_avoid h hl
  have i : ∀ {k : String}, k.toList ∈ special → is n k = false := fun hk => is_avoid h hk
  have h1 : is n "template" = false := i (by decide +kernel)
  have h2 : is n "body" = false := i (by decide +kernel)
  have h3 : is n "html" = false := i (by decide +kernel)
  have h4 : oneOf n blockEnd = false := a (by decide +kernel)
  have h5 : is n "form" = false := i (by decide +kernel)
  have h6 : is n "p" = false := i (by decide +kernel)
  have h7 : is n "li" = false := i (by decide +kernel)
  have h8 : oneOf n ["dd", "dt"] = false := a (by decide +kernel)
  have h9 : oneOf n headings = false := a (by decide +kernel)
  have h10 : is n "sarcasm" = false := i (by decide +kernel)
  have h11 : oneOf n formattingEnd = false := a (by decide +kernel)
  have h12 : oneOf n ["applet", "marquee", "object"] = false := a (by decide +kernel)
  have h13 : is n "br" = false := i (by decide +kernel)
  simp only [inBodyEnd, h1, h2, h3, h4, h5, h6, h7, h8, h9, h10, h11, h12, h13, Bool.false_eq_true, if_false]

end

end Verif.TreeBuild
