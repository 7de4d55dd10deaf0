import Verif.Util

/-!
# Model of the response handling decision and of the response router

Files modelled (in /repo/crates/gosub_engine/src): `net/decision.rs`, `net/decision/sniff.rs`,
`net/decision/types.rs`, `net/router.rs`, `engine/policy.rs`.

Not modelled: the `mime` crate's parser, the `mimetype_detector` crate, `std::str::from_utf8`,
`String::from_utf8_lossy`, the `serde_json` parser and the resource pipelines themselves.  They are the
fields of `Ext`, and every theorem holds for all of them.  A streamed body is represented by the bytes
it will eventually yield (reading it never fails), so stream errors are not modelled.
-/
namespace Verif.Decision
open Verif

abbrev Bytes := List UInt8

/-- `mime::Mime`: type, subtype without suffix, suffix – `net/decision/sniff.rs:29-31` -/
structure Mime where
  typ : Str
  sub : Str
  suffix : Option Str
  deriving DecidableEq, Repr

/-- `net/decision/sniff.rs:9-24` -/
inductive Class
  | html | xhtml | xml | text | css | js | json | image | audio | video | font | pdf | binary | unknown
  deriving DecidableEq, Repr

/-- `net/decision/types.rs:7-24` -/
inductive Dest
  | document | image | style | script | font | audio | video | worker | sharedWorker | serviceWorker
  | manifest | track | xslt | fetch | xhr | other
  deriving DecidableEq, Repr

/-- `net/decision/types.rs:72-86` (`RenderTarget`) -/
inductive Target
  | htmlParser | cssParser | jsEngine | imageDecoder | fontLoader | pdfViewer
  deriving DecidableEq, Repr

/-- `net/decision/types.rs:47-52` (the download path is always empty, `decision.rs:76`) -/
inductive Decision
  | render (t : Target)
  | download
  deriving DecidableEq, Repr

/-- `net/decision/types.rs:28-39` -/
structure Outcome where
  cls : Class
  sniffed : Option Class
  declared : Option Mime
  attachment : Bool
  decision : Decision
  deriving DecidableEq, Repr

/-- `engine/policy.rs:3-13` -/
structure Policy where
  sniffing : Bool
  navigationUpgrade : Bool
  pdfViewer : Bool
  downloads : Bool
  deriving DecidableEq, Repr

/-- `engine/policy.rs:16-23` -/
def Policy.default : Policy := ⟨true, true, true, false⟩

/-- The response head: the `http::HeaderMap` as the list of header lines in order of arrival, names in
their canonical lower case form.  The other fields of `FetchResultMeta` do not take part. -/
structure Meta where
  headers : List (Str × Bytes)
  deriving DecidableEq, Repr

/-- JSON values.  An object's members are in the iteration order of `serde_json::Map`; a number is the
text `serde_json` displays for it. -/
inductive Json : Type
  | null
  | bool (b : Bool)
  | num (s : Str)
  | str (s : Str)
  | arr (xs : List Json)
  | obj (ms : List (Str × Json))

/-- the outside functions the modelled code calls -/
structure Ext where
  /-- `str::parse::<mime::Mime>` -/
  parseMime : Str → Option Mime
  /-- `mimetype_detector::detect` followed by parsing its answer – `sniff.rs:94-95` -/
  detect : Bytes → Mime
  /-- `std::str::from_utf8` -/
  utf8 : Bytes → Option Str
  /-- `String::from_utf8_lossy` -/
  lossy : Bytes → Str
  /-- `serde_json::from_slice` -/
  parseJson : Bytes → Option Json

/-- `HeaderMap::get`: the first line of that name -/
def Meta.header (m : Meta) (name : Str) : Option Bytes :=
  match m.headers.find? (fun h => decide (h.1 = name)) with
  | some h => some h.2
  | none => none

/-- `HeaderValue::to_str`: only visible ASCII and tab -/
def toStr (b : Bytes) : Option Str :=
  if b.all (fun x => (32 ≤ x.toNat && x.toNat < 127) || x.toNat == 9) then
    some (b.map fun x => Char.ofNat x.toNat)
  else none

/-- `net/decision.rs:143-148` -/
def contentType (e : Ext) (m : Meta) : Option Mime :=
  match m.header "content-type".toList with
  | some v => match toStr v with
    | some s => e.parseMime s
    | none => none
  | none => none

/-- `net/decision.rs:151-156` -/
def headerEq (m : Meta) (name val : Str) : Bool :=
  match m.header name with
  | some v => match toStr v with
    | some s => eqIgnoreCase s val
    | none => false
  | none => false

/-- `net/decision.rs:159-165` -/
def dispositionIsAttachment (m : Meta) : Bool :=
  match m.header "content-disposition".toList with
  | some v => match toStr v with
    | some s => "attachment".toList.isPrefixOf (lower (trim s))
    | none => false
  | none => false

/-- `net/decision.rs:168-170`; the second disjunct compares the whole essence, which has a `+suffix`
when there is one -/
def mimeIsPdf (m : Mime) : Bool :=
  decide (m.typ = "application".toList ∧ m.sub = "pdf".toList) ||
    eqIgnoreCase (m.typ ++ ['/'] ++ m.sub ++ (match m.suffix with | some x => '+' :: x | none => []))
      "application/pdf".toList

/-- `net/decision.rs:173-194` -/
def classFromMime (m : Mime) : Option Class :=
  if m.typ = "text".toList ∧ m.sub = "html".toList then some .html
  else if m.typ = "text".toList ∧ m.sub = "css".toList then some .css
  else if m.typ = "application".toList ∧ m.sub = "javascript".toList then some .js
  else if m.typ = "image".toList then some .image
  else if m.typ = "font".toList then some .font
  else if mimeIsPdf m then some .pdf
  else if m.typ = "application".toList ∧ m.sub = "json".toList then some .json
  else if m.typ = "text".toList then some .text
  else none

/-- `net/decision/sniff.rs:28-62` -/
def fromMime (m : Mime) : Class :=
  let a := "application".toList
  let t := "text".toList
  if m.typ = a ∧ m.sub = "xhtml".toList ∧ m.suffix = some "xml".toList then .xhtml
  else if m.typ = t ∧ m.sub = "html".toList then .html
  else if (m.typ = a ∨ m.typ = t) ∧ m.sub = "xml".toList then .xml
  else if (m.typ = a ∨ m.typ = t) ∧ m.sub = "json".toList then .json
  else if m.typ = t ∧ m.sub = "plain".toList then .text
  else if m.typ = t ∧ m.sub = "css".toList then .css
  else if (m.typ = a ∨ m.typ = t) ∧ m.sub = "javascript".toList then .js
  else if m.typ = a ∧ m.sub = "ecmascript".toList then .js
  else if m.typ = "image".toList then .image
  else if m.typ = "audio".toList then .audio
  else if m.typ = "video".toList then .video
  else if m.typ = "font".toList then .font
  else if m.typ = a ∧ (m.sub = "font-woff".toList ∨ m.sub = "font-woff2".toList ∨
      m.sub = "font-ttf".toList ∨ m.sub = "vnd.ms-fontobject".toList) then .font
  else if m.typ = a ∧ m.sub = "pdf".toList then .pdf
  else if m.typ = a ∧ m.sub = "octet-stream".toList then .binary
  else .unknown

/-- `str::contains(&str)` -/
def hasSub (p : Str) : Str → Bool
  | [] => p.isPrefixOf []
  | c :: r => p.isPrefixOf (c :: r) || hasSub p r

/-- `net/decision/sniff.rs:72-91`: the textual heuristics -/
def sniffText (text : Str) : Option Class :=
  let l := lower (trimStart isWs text)
  let starts := fun p : String => p.toList.isPrefixOf l
  let has := fun p : String => hasSub p.toList l
  if starts "<!doctype html" || starts "<html" then some .html
  else if starts "<?xml" || starts "<rss" || starts "<feed" then some .xml
  else if l.contains '{' && (l.contains ':' || l.contains ';') && !starts "<" then some .css
  else if has "function " || has "console." || has "var " || has "const " || has "let " then some .js
  else none

/-- `net/decision/sniff.rs:66-97` -/
def sniffClass (e : Ext) (peek : Bytes) : Class :=
  match (match e.utf8 (peek.take 512) with | some t => sniffText t | none => none) with
  | some c => c
  | none => fromMime (e.detect peek)

/-- `net/decision.rs:36-140` -/
def decideHandling (e : Ext) (m : Meta) (dest : Dest) (peek : Bytes) (p : Policy) : Outcome :=
  let declared := contentType e m
  let nosniff := headerEq m "x-content-type-options".toList "nosniff".toList
  let att := dispositionIsAttachment m
  let sniffed : Option Class := if p.sniffing && !nosniff then some (sniffClass e peek) else none
  let eff0 : Option Class := (declared.bind classFromMime).or sniffed
  -- lines 56-66
  let eff : Option Class :=
    if p.navigationUpgrade && decide (dest = .document) && eff0.isNone then
      if sniffed = some .html ∨ sniffed = some .xml then sniffed else eff0
    else eff0
  if att && p.downloads then ⟨eff.getD .binary, sniffed, declared, true, .download⟩
  else if p.pdfViewer && ((declared.map mimeIsPdf).getD false || decide (sniffed = some .pdf)) then
    ⟨.pdf, sniffed, declared, false, .render .pdfViewer⟩
  else
    let cls := eff.getD .binary
    let decision : Decision := match cls with
      | .html | .xhtml | .xml => .render .htmlParser
      | .image => .render .imageDecoder
      | .js => .render .jsEngine
      | .css => .render .cssParser
      | .font => .render .fontLoader
      | .pdf => .download
      | .json | .text | .binary =>
        if dest = .document ∧ p.navigationUpgrade = true ∧ (sniffed = some .html ∨ sniffed = some .xml) then
          .render .htmlParser
        else .download
      | _ => .download
    ⟨cls, sniffed, declared, att, decision⟩

/-! ## The pages the router generates -/

/-- `net/router.rs:46-51`: what one character becomes -/
def escapeChar (c : Char) : Str :=
  if c = '&' then "&amp;".toList
  else if c = '<' then "&lt;".toList
  else if c = '>' then "&gt;".toList
  else [c]

/-- `net/router.rs:43-54` -/
def htmlEscape (text : Str) : Str := text.flatMap escapeChar

/-- `net/router.rs:62-63`, before the text -/
def textPageHead : Str :=
  "<!DOCTYPE html><html><head><meta charset=\"utf-8\"></head><body><pre style=\"white-space: pre-wrap; word-wrap: break-word;\">".toList
/-- `net/router.rs:63`, after the text -/
def textPageTail : Str := "</pre></body></html>".toList

/-- `net/router.rs:59-65`, after the lossy decoding -/
def textPage (text : Str) : Str := textPageHead ++ htmlEscape text ++ textPageTail

/-- `net/router.rs:68` -/
def keyOpen : Str := "<span style=\"color:#6f42c1\">".toList
/-- `net/router.rs:69` -/
def strOpen : Str := "<span style=\"color:#22863a\">".toList
/-- `net/router.rs:70` -/
def numOpen : Str := "<span style=\"color:#005cc5\">".toList
/-- `net/router.rs:71` -/
def litOpen : Str := "<span style=\"color:#d73a49\">".toList
/-- end of a span -/
def spanClose : Str := "</span>".toList

/-- `net/router.rs:73-83`; containers are unreachable there -/
def scalarHtml : Json → Str
  | .null => litOpen ++ "null".toList ++ spanClose
  | .bool b => litOpen ++ (if b then "true" else "false").toList ++ spanClose
  | .num s => numOpen ++ s ++ spanClose
  | .str s => strOpen ++ '"' :: (htmlEscape s ++ '"' :: spanClose)
  | _ => []

/-- `net/router.rs:87-89` -/
def keyPrefix : Option Str → Str
  | some k => keyOpen ++ '"' :: (htmlEscape k ++ '"' :: (spanClose ++ ": ".toList))
  | none => []

mutual
/-- `net/router.rs:86-111` -/
def jsonLines (v : Json) (depth : Nat) (key : Option Str) (trail : Str) : List (Nat × Str) :=
  match v with
  | .obj [] => [(depth, keyPrefix key ++ "{}".toList ++ trail)]
  | .arr [] => [(depth, keyPrefix key ++ "[]".toList ++ trail)]
  | .obj (m :: ms) =>
    (depth, keyPrefix key ++ "{".toList) ::
      (memberLines (m :: ms) (depth + 1) ++ [(depth, "}".toList ++ trail)])
  | .arr (x :: xs) =>
    (depth, keyPrefix key ++ "[".toList) ::
      (itemLines (x :: xs) (depth + 1) ++ [(depth, "]".toList ++ trail)])
  | v => [(depth, keyPrefix key ++ scalarHtml v ++ trail)]
/-- `net/router.rs:96-98` -/
def memberLines (ms : List (Str × Json)) (depth : Nat) : List (Nat × Str) :=
  match ms with
  | [] => []
  | (k, v) :: r => jsonLines v depth (some k) (if r.isEmpty then [] else [',']) ++ memberLines r depth
/-- `net/router.rs:104-106` -/
def itemLines (xs : List Json) (depth : Nat) : List (Nat × Str) :=
  match xs with
  | [] => []
  | v :: r => jsonLines v depth none (if r.isEmpty then [] else [',']) ++ itemLines r depth
end

/-- `net/router.rs:124-128` -/
def lineDiv (l : Nat × Str) : Str :=
  if 0 < l.1 then
    "<div style=\"padding-left:".toList ++ (toString (l.1 * 2)).toList ++ "em\">".toList ++ l.2 ++ "</div>".toList
  else "<div>".toList ++ l.2 ++ "</div>".toList

/-- `net/router.rs:131-132` -/
def jsonPageHead : Str :=
  "<!DOCTYPE html><html><head><meta charset=\"utf-8\"></head><body style=\"font-family:monospace;font-size:13px;color:#24292e;background:#ffffff\">".toList
/-- `net/router.rs:132` -/
def jsonPageTail : Str := "</body></html>".toList

/-- `net/router.rs:119-134` -/
def jsonPage (v : Json) : Str := jsonPageHead ++ (jsonLines v 0 none []).flatMap lineDiv ++ jsonPageTail

/-! ## Routing -/

/-- what the HTML pipeline is given: the response's own bytes, or a page generated by the router -/
inductive Source
  | response (b : Bytes)
  | generated (page : Str)
  deriving DecidableEq

/-- `net/router.rs:18-41`; a delivered resource is represented by the bytes handed to its pipeline.
Simplified: the pipelines' results are not modelled (they succeed). -/
inductive Routed
  | mainDocument (s : Source)
  | viewer (b : Bytes)
  | css (b : Bytes)
  | script (b : Bytes)
  | image (b : Bytes)
  | font (b : Bytes)
  | blocked
  | downloadOffer (m : Meta)
  /-- `Err(..)`: the fetch itself failed, line 173-175 -/
  | failed
  deriving DecidableEq

/-- `FetchResult`, `net/router.rs:166-176`.  `stream` carries the peeked prefix and all the bytes. -/
inductive Fetched
  | stream (m : Meta) (peek : Bytes) (body : Bytes)
  | buffered (m : Meta) (body : Bytes)
  | error

/-- `net/router.rs:205-221`: the page shown for a textual document -/
def textualPage (e : Ext) (c : Class) (body : Bytes) : Str :=
  if c = .json then
    match e.parseJson body with
    | some v => jsonPage v
    | none => textPage (e.lossy body)
  else textPage (e.lossy body)

/-- `net/router.rs:178-262` -/
def routeDecided (e : Ext) (dest : Dest) (m : Meta) (peek body : Bytes) (p : Policy) : Routed :=
  let o := decideHandling e m dest peek p
  match dest, o.decision with
  | .document, .render .htmlParser => .mainDocument (.response body)
  | .document, .render _ => .viewer body
  | .document, .download =>
    if !o.attachment && decide (o.cls = .json ∨ o.cls = .text) then
      .mainDocument (.generated (textualPage e o.cls body))
    else .downloadOffer m
  | .style, .render .cssParser => .css body
  | .script, .render .jsEngine => .script body
  | .image, .render .imageDecoder => .image body
  | .font, .render .fontLoader => .font body
  | _, _ => .blocked

/-- `net/router.rs:157-263` -/
def route (e : Ext) (dest : Dest) (f : Fetched) (p : Policy) : Routed :=
  match f with
  | .stream m peek body => routeDecided e dest m peek body p
  | .buffered m body => routeDecided e dest m (body.take (5 * 1024)) body p
  | .error => .failed

end Verif.Decision
