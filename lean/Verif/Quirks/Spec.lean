import Verif.Quirks.Model

/-!
# Specification: the mode of a document in the HTML standard (13.2.6.4.1, "The initial insertion mode")

The identifiers are written as in the standard.
-/
namespace Verif.Quirks

/-- the lower case of a letter of ASCII, other characters are as they are -/
def asciiLower (c : Char) : Char := if 'A' ≤ c ∧ c ≤ 'Z' then Char.ofNat (c.toNat + 32) else c

/-- equal up to the case of letters of ASCII -/
def Same (a b : List Char) : Prop := a.map asciiLower = b.map asciiLower

/-- `v` begins with `p`, up to the case of letters of ASCII -/
def Begins (p v : List Char) : Prop := ∃ a b, v = a ++ b ∧ Same a p

/-- "The public identifier is set to" one of these -/
def quirkyPublic : List (List Char) := [
  "-//W3O//DTD W3 HTML Strict 3.0//EN//".toList, "-/W3C/DTD HTML 4.0 Transitional/EN".toList, "HTML".toList]

/-- "The system identifier is set to" this one -/
def quirkySystem : List Char := "http://www.ibm.com/data/dtd/v11/ibmxhtml1-transitional.dtd".toList

/-- "The public identifier starts with" one of these -/
def quirkyStarts : List (List Char) := [
  "+//Silmaril//dtd html Pro v0r11 19970101//".toList,
  "-//AS//DTD HTML 3.0 asWedit + extensions//".toList,
  "-//AdvaSoft Ltd//DTD HTML 3.0 asWedit + extensions//".toList,
  "-//IETF//DTD HTML 2.0 Level 1//".toList,
  "-//IETF//DTD HTML 2.0 Level 2//".toList,
  "-//IETF//DTD HTML 2.0 Strict Level 1//".toList,
  "-//IETF//DTD HTML 2.0 Strict Level 2//".toList,
  "-//IETF//DTD HTML 2.0 Strict//".toList,
  "-//IETF//DTD HTML 2.0//".toList,
  "-//IETF//DTD HTML 2.1E//".toList,
  "-//IETF//DTD HTML 3.0//".toList,
  "-//IETF//DTD HTML 3.2 Final//".toList,
  "-//IETF//DTD HTML 3.2//".toList,
  "-//IETF//DTD HTML 3//".toList,
  "-//IETF//DTD HTML Level 0//".toList,
  "-//IETF//DTD HTML Level 1//".toList,
  "-//IETF//DTD HTML Level 2//".toList,
  "-//IETF//DTD HTML Level 3//".toList,
  "-//IETF//DTD HTML Strict Level 0//".toList,
  "-//IETF//DTD HTML Strict Level 1//".toList,
  "-//IETF//DTD HTML Strict Level 2//".toList,
  "-//IETF//DTD HTML Strict Level 3//".toList,
  "-//IETF//DTD HTML Strict//".toList,
  "-//IETF//DTD HTML//".toList,
  "-//Metrius//DTD Metrius Presentational//".toList,
  "-//Microsoft//DTD Internet Explorer 2.0 HTML Strict//".toList,
  "-//Microsoft//DTD Internet Explorer 2.0 HTML//".toList,
  "-//Microsoft//DTD Internet Explorer 2.0 Tables//".toList,
  "-//Microsoft//DTD Internet Explorer 3.0 HTML Strict//".toList,
  "-//Microsoft//DTD Internet Explorer 3.0 HTML//".toList,
  "-//Microsoft//DTD Internet Explorer 3.0 Tables//".toList,
  "-//Netscape Comm. Corp.//DTD HTML//".toList,
  "-//Netscape Comm. Corp.//DTD Strict HTML//".toList,
  "-//O'Reilly and Associates//DTD HTML 2.0//".toList,
  "-//O'Reilly and Associates//DTD HTML Extended 1.0//".toList,
  "-//O'Reilly and Associates//DTD HTML Extended Relaxed 1.0//".toList,
  "-//SQ//DTD HTML 2.0 HoTMetaL + extensions//".toList,
  "-//SoftQuad Software//DTD HoTMetaL PRO 6.0::19990601::extensions to HTML 4.0//".toList,
  "-//SoftQuad//DTD HoTMetaL PRO 4.0::19971010::extensions to HTML 4.0//".toList,
  "-//Spyglass//DTD HTML 2.0 Extended//".toList,
  "-//Sun Microsystems Corp.//DTD HotJava HTML//".toList,
  "-//Sun Microsystems Corp.//DTD HotJava Strict HTML//".toList,
  "-//W3C//DTD HTML 3 1995-03-24//".toList,
  "-//W3C//DTD HTML 3.2 Draft//".toList,
  "-//W3C//DTD HTML 3.2 Final//".toList,
  "-//W3C//DTD HTML 3.2//".toList,
  "-//W3C//DTD HTML 3.2S Draft//".toList,
  "-//W3C//DTD HTML 4.0 Frameset//".toList,
  "-//W3C//DTD HTML 4.0 Transitional//".toList,
  "-//W3C//DTD HTML Experimental 19960712//".toList,
  "-//W3C//DTD HTML Experimental 970421//".toList,
  "-//W3C//DTD W3 HTML//".toList,
  "-//W3O//DTD W3 HTML 3.0//".toList,
  "-//WebTechs//DTD Mozilla HTML 2.0//".toList,
  "-//WebTechs//DTD Mozilla HTML//".toList]

/-- the public identifiers of HTML 4.01: quirks without a system identifier, limited quirks with one -/
def html401 : List (List Char) := [
  "-//W3C//DTD HTML 4.01 Frameset//".toList, "-//W3C//DTD HTML 4.01 Transitional//".toList]

/-- the public identifiers of XHTML 1.0: limited quirks -/
def xhtml10 : List (List Char) := [
  "-//W3C//DTD XHTML 1.0 Frameset//".toList, "-//W3C//DTD XHTML 1.0 Transitional//".toList]

/-- the doctype sets the document to quirks mode -/
def Quirky (name pub sys : Option (List Char)) (force : Bool) : Prop :=
  force = true ∨ name ≠ some "html".toList ∨
  (∃ v, pub = some v ∧ ((∃ q ∈ quirkyPublic, Same v q) ∨ ∃ q ∈ quirkyStarts, Begins q v)) ∨
  (∃ v, sys = some v ∧ Same v quirkySystem) ∨
  (sys = none ∧ ∃ v, pub = some v ∧ ∃ q ∈ html401, Begins q v)

/-- the public identifier asks for limited quirks mode, if not for quirks mode -/
def Limited (pub sys : Option (List Char)) : Prop :=
  (∃ v, pub = some v ∧ ∃ q ∈ xhtml10, Begins q v) ∨
  (sys ≠ none ∧ ∃ v, pub = some v ∧ ∃ q ∈ html401, Begins q v)

/-- the mode that the standard asks for -/
def Right (name pub sys : Option (List Char)) (force : Bool) : Mode → Prop
  | .quirks => Quirky name pub sys force
  | .limited => ¬ Quirky name pub sys force ∧ Limited pub sys
  | .no => ¬ Quirky name pub sys force ∧ ¬ Limited pub sys

/-- what is known of the lower case of other characters: it begins with a character outside ASCII -/
def Foreign (low : Char → List Char) : Prop := ∀ c, 128 ≤ c.toNat → ∃ x r, low c = x :: r ∧ 128 ≤ x.toNat

end Verif.Quirks
