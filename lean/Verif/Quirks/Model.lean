/-!
# Model of the choice of the mode of a document from its doctype

File modelled: `/repo/crates/gosub_html5/src/parser/quirks.rs`.
-/
namespace Verif.Quirks

/-- `gosub_interface/src/node.rs`: `QuirksMode` -/
inductive Mode
  | quirks
  | limited
  | no
  deriving DecidableEq

/-- `str::to_lowercase` on one character. Only two characters outside ASCII have a lower case that begins with a
character of ASCII: the Kelvin sign and the dotted capital I; `low` is the lower case of all others.
Simplification: the lower case of a sigma does not depend on its place in a word. -/
def lower (low : Char → List Char) (c : Char) : List Char :=
  if c.toNat < 128 then [if 'A' ≤ c ∧ c ≤ 'Z' then Char.ofNat (c.toNat + 32) else c]
  else if c.toNat = 0x212A then ['k']
  else if c.toNat = 0x130 then ['i', Char.ofNat 0x307]
  else low c

/-- `quirks.rs:70-74` -/
def pubEq : List (List Char) := [
  "-//w3o//dtd w3 html strict 3.0//en//".toList,
  "-/w3c/dtd html 4.0 transitional/en".toList,
  "html".toList]

/-- `quirks.rs:76-132` -/
def pubPrefix : List (List Char) := [
  "+//silmaril//dtd html pro v0r11 19970101//".toList,
  "-//as//dtd html 3.0 aswedit + extensions//".toList,
  "-//advasoft ltd//dtd html 3.0 aswedit + extensions//".toList,
  "-//ietf//dtd html 2.0 level 1//".toList,
  "-//ietf//dtd html 2.0 level 2//".toList,
  "-//ietf//dtd html 2.0 strict level 1//".toList,
  "-//ietf//dtd html 2.0 strict level 2//".toList,
  "-//ietf//dtd html 2.0 strict//".toList,
  "-//ietf//dtd html 2.0//".toList,
  "-//ietf//dtd html 2.1e//".toList,
  "-//ietf//dtd html 3.0//".toList,
  "-//ietf//dtd html 3.2 final//".toList,
  "-//ietf//dtd html 3.2//".toList,
  "-//ietf//dtd html 3//".toList,
  "-//ietf//dtd html level 0//".toList,
  "-//ietf//dtd html level 1//".toList,
  "-//ietf//dtd html level 2//".toList,
  "-//ietf//dtd html level 3//".toList,
  "-//ietf//dtd html strict level 0//".toList,
  "-//ietf//dtd html strict level 1//".toList,
  "-//ietf//dtd html strict level 2//".toList,
  "-//ietf//dtd html strict level 3//".toList,
  "-//ietf//dtd html strict//".toList,
  "-//ietf//dtd html//".toList,
  "-//metrius//dtd metrius presentational//".toList,
  "-//microsoft//dtd internet explorer 2.0 html strict//".toList,
  "-//microsoft//dtd internet explorer 2.0 html//".toList,
  "-//microsoft//dtd internet explorer 2.0 tables//".toList,
  "-//microsoft//dtd internet explorer 3.0 html strict//".toList,
  "-//microsoft//dtd internet explorer 3.0 html//".toList,
  "-//microsoft//dtd internet explorer 3.0 tables//".toList,
  "-//netscape comm. corp.//dtd html//".toList,
  "-//netscape comm. corp.//dtd strict html//".toList,
  "-//o'reilly and associates//dtd html 2.0//".toList,
  "-//o'reilly and associates//dtd html extended 1.0//".toList,
  "-//o'reilly and associates//dtd html extended relaxed 1.0//".toList,
  "-//sq//dtd html 2.0 hotmetal + extensions//".toList,
  "-//softquad software//dtd hotmetal pro 6.0::19990601::extensions to html 4.0//".toList,
  "-//softquad//dtd hotmetal pro 4.0::19971010::extensions to html 4.0//".toList,
  "-//spyglass//dtd html 2.0 extended//".toList,
  "-//sun microsystems corp.//dtd hotjava html//".toList,
  "-//sun microsystems corp.//dtd hotjava strict html//".toList,
  "-//w3c//dtd html 3 1995-03-24//".toList,
  "-//w3c//dtd html 3.2 draft//".toList,
  "-//w3c//dtd html 3.2 final//".toList,
  "-//w3c//dtd html 3.2//".toList,
  "-//w3c//dtd html 3.2s draft//".toList,
  "-//w3c//dtd html 4.0 frameset//".toList,
  "-//w3c//dtd html 4.0 transitional//".toList,
  "-//w3c//dtd html experimental 19960712//".toList,
  "-//w3c//dtd html experimental 970421//".toList,
  "-//w3c//dtd w3 html//".toList,
  "-//w3o//dtd w3 html 3.0//".toList,
  "-//webtechs//dtd mozilla html 2.0//".toList,
  "-//webtechs//dtd mozilla html//".toList]

/-- `quirks.rs:134-137` -/
def pubPrefixNoSys : List (List Char) := [
  "-//w3c//dtd html 4.01 frameset//".toList,
  "-//w3c//dtd html 4.01 transitional//".toList]

/-- `quirks.rs:139` -/
def sysEq : List (List Char) := [
  "http://www.ibm.com/data/dtd/v11/ibmxhtml1-transitional.dtd".toList]

/-- `quirks.rs:141-144` -/
def limitedPrefix : List (List Char) := [
  "-//w3c//dtd xhtml 1.0 frameset//".toList,
  "-//w3c//dtd xhtml 1.0 transitional//".toList]

/-- `quirks.rs:146-149` -/
def limitedPrefixSys : List (List Char) := [
  "-//w3c//dtd html 4.01 frameset//".toList,
  "-//w3c//dtd html 4.01 transitional//".toList]

/-- `iter().any(|prefix| id.starts_with(prefix))` -/
def startsWithAny (t : List (List Char)) (v : List Char) : Bool := t.any fun p => p.isPrefixOf v

/-- `quirks.rs:18-54`: what the public identifier decides -/
def byPublic (low : Char → List Char) (value : List Char) (sys : Option (List Char)) : Option Mode :=
  let pubId := value.flatMap (lower low)
  if pubEq.contains pubId then some .quirks
  else if startsWithAny pubPrefix pubId then some .quirks
  else if sys.isSome && startsWithAny limitedPrefixSys pubId then some .limited
  else if sys.isNone && startsWithAny pubPrefixNoSys pubId then some .quirks
  else if startsWithAny limitedPrefix pubId then some .limited
  else none

/-- `quirks.rs:56-66`: what the system identifier decides -/
def bySystem (low : Char → List Char) (sys : Option (List Char)) : Mode :=
  match sys with
  | some value => if startsWithAny sysEq (value.flatMap (lower low)) then .quirks else .no
  | none => .no

/-- `quirks.rs:8-67` -/
def identify (low : Char → List Char) (name pub sys : Option (List Char)) (force : Bool) : Mode :=
  if force || decide (name.getD [] ≠ "html".toList) then .quirks
  else match pub.bind fun v => byPublic low v sys with
    | some m => m
    | none => bySystem low sys

end Verif.Quirks
