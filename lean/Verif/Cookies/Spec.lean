import Verif.Cookies.Model
/-!
# Cookies: the vocabulary of the properties

Nothing here mentions how the jar parses, filters or updates.
-/
namespace Verif.Cookies

/-- The jar holds cookie `c` for origin `o`. -/
def Holds (jar : Jar) (o : Origin) (c : Cookie) : Prop := ∃ b, (o, b) ∈ jar.entries ∧ c ∈ b

/-- same name, domain and path -/
def SameId (c d : Cookie) : Prop := c.name = d.name ∧ c.domain = d.domain ∧ c.path = d.path

/-- A jar produced by some history of calls. -/
def Reachable (env : Env) (jar : Jar) : Prop := ∃ policy ops, jar = run env (new policy) ops

/-- `host` is `d` or a name below `d` (ASCII case-insensitively). -/
def AtOrBelow (host d : Str) : Prop :=
  lower host = lower d ∨ ∃ pre, lower host = pre ++ '.' :: lower d

/-- `d` is a known public suffix: it is listed, and has no registrable part. -/
def PublicSuffix (env : Env) (d : Str) : Prop :=
  env.psl.domain d = none ∧ env.psl.suffixKnown d = true

/-- RFC 6265 §5.1.4 -/
def PathMatch (reqPath cookiePath : Str) : Prop :=
  reqPath = cookiePath ∨
    ∃ rest, reqPath = cookiePath ++ rest ∧ ((∃ q, cookiePath = q ++ ['/']) ∨ ∃ q, rest = '/' :: q)

/-- two hosts belong to the same site: equal registrable domains, or (when one has none) equal hosts -/
def SameSite (env : Env) (a b : Str) : Prop :=
  (∃ d, env.psl.domain a = some d ∧ env.psl.domain b = some d) ∨
  ((env.psl.domain a = none ∨ env.psl.domain b = none) ∧ a = b)

/-- the request is made on behalf of a page of another site -/
def ThirdParty (env : Env) (url : Url) (top : Option Url) : Prop :=
  ∃ tl, top = some tl ∧ ¬ SameSite env url.host tl.host

def Unexpired (now : Int) (c : Cookie) : Prop := ∀ e, c.expires = some e → now < e

def IsStrict (c : Cookie) : Prop := c.sameSite = some "Strict".toList
def IsNone (c : Cookie) : Prop := c.sameSite = some "None".toList
/-- explicit `Lax`, absent or unrecognised -/
def IsLax (c : Cookie) : Prop := ¬ IsStrict c ∧ ¬ IsNone c

/-- What the SameSite attribute allows. -/
def SameSiteAllows (ctx : Ctx) (c : Cookie) : Prop :=
  (IsStrict c → ctx = .sameSite) ∧ (IsNone c → c.secure = true) ∧ (IsLax c → ctx ≠ .crossSite)

/-- What the third-party policy allows. -/
def PolicyAllows (env : Env) (policy : Policy) (url : Url) (top : Option Url) (c : Cookie) : Prop :=
  ThirdParty env url top → policy ≠ .block ∧ (policy = .sameSiteNoneOnly → IsNone c ∧ c.secure = true)

/-- The cookie `c` of origin `o` belongs in the `Cookie` header of this request. -/
def ShouldSend (env : Env) (policy : Policy) (url : Url) (top : Option Url) (ctx : Ctx) (now : Int)
    (o : Origin) (c : Cookie) : Prop :=
  Unexpired now c ∧ PolicyAllows env policy url top c ∧ SameSiteAllows ctx c ∧
  (∀ d, c.domain = some d → AtOrBelow url.host d) ∧ (c.domain = none → o = url.origin) ∧
  (∀ p, c.path = some p → PathMatch url.path p) ∧
  (c.secure = true → url.scheme = "https".toList)

/-- byte length of the path (absent counts as empty) -/
def pathLen (c : Cookie) : Nat := (((c.path.getD []).map Char.utf8Size)).sum

/-- `a` may precede `b` in the header -/
def Before (a b : Cookie) : Prop :=
  pathLen b < pathLen a ∨ (pathLen a = pathLen b ∧ a.createdAt ≤ b.createdAt)

/-- the text of a header made of these cookies -/
def headerText (cs : List Cookie) : Str :=
  (List.intersperse "; ".toList (cs.map (fun c => c.name ++ "=".toList ++ c.value))).flatten

/-- The header value returned for a request consists of exactly the cookies `cs`, in this order. -/
def Answer (header : Option Str) (cs : List (Origin × Cookie)) : Prop :=
  header = if cs = [] then none else some (headerText (cs.map (·.2)))

/-! ## Set-Cookie headers as structured data -/

inductive SameSiteKw where
  | lax | strict | none
deriving DecidableEq, Repr

/-- An attribute of a Set-Cookie header. -/
inductive Attr where
  | path (p : Str)
  | domain (d : Str)
  | maxAge (n : Nat)
  | maxAgeNeg (n : Nat)
  | expires (s : Str)
  | sameSite (k : SameSiteKw)
  | secure
  | httpOnly
deriving DecidableEq, Repr

def SameSiteKw.text : SameSiteKw → Str
  | .lax => "Lax".toList
  | .strict => "Strict".toList
  | .none => "None".toList

def Attr.text : Attr → Str
  | .path p => "Path=".toList ++ p
  | .domain d => "Domain=".toList ++ d
  | .maxAge n => "Max-Age=".toList ++ Nat.toDigits 10 n
  | .maxAgeNeg n => "Max-Age=-".toList ++ Nat.toDigits 10 n
  | .expires s => "Expires=".toList ++ s
  | .sameSite k => "SameSite=".toList ++ k.text
  | .secure => "Secure".toList
  | .httpOnly => "HttpOnly".toList

/-- the text of a Set-Cookie header -/
def setCookieText (name value : Str) (attrs : List Attr) : Str :=
  name ++ "=".toList ++ value ++ (attrs.map (fun a => "; ".toList ++ a.text)).flatten

def Attr.asPath : Attr → Option Str
  | .path p => some p
  | _ => none
def Attr.asDomain : Attr → Option Str
  | .domain p => some p
  | _ => none
def Attr.asMaxAge : Attr → Option Int
  | .maxAge n => some (n : Int)
  | .maxAgeNeg n => some (-(n : Int))
  | _ => none
def Attr.asExpires : Attr → Option Str
  | .expires s => some s
  | _ => none
def Attr.asSameSite : Attr → Option Str
  | .sameSite k => some k.text
  | _ => none

/-- the last attribute of a kind wins -/
def lastPath (as : List Attr) : Option Str := as.reverse.findSome? Attr.asPath
def lastDomain (as : List Attr) : Option Str := as.reverse.findSome? Attr.asDomain
def lastMaxAge (as : List Attr) : Option Int := as.reverse.findSome? Attr.asMaxAge
def lastExpires (as : List Attr) : Option Str := as.reverse.findSome? Attr.asExpires
def lastSameSite (as : List Attr) : Option Str := as.reverse.findSome? Attr.asSameSite

/-- The attribute is written plainly: what the grammar of RFC 6265 calls well-formed, and a domain
that the response may use. -/
def Attr.Wf (env : Env) (host : Str) : Attr → Prop
  | .path p => (∃ q, p = '/' :: q) ∧ ';' ∉ p ∧ Trimmed p ∧ p.getLast? ≠ some '"'
  | .domain d => d ≠ [] ∧ ';' ∉ d ∧ Trimmed d ∧ d.head? ≠ some '.' ∧ lower d = d ∧
      AtOrBelow host d ∧ ¬ PublicSuffix env d
  | .maxAge n => n < 2 ^ 63
  | .maxAgeNeg n => n ≤ 2 ^ 63
  | .expires s => ';' ∉ s ∧ Trimmed s
  | _ => True

def NameWf (n : Str) : Prop := n ≠ [] ∧ '=' ∉ n ∧ ';' ∉ n ∧ Trimmed n
def ValueWf (v : Str) : Prop := ';' ∉ v ∧ Trimmed v

/-- directory of the request path: everything before the last slash, `/` if that is empty -/
def DefaultPathOf (path dir : Str) : Prop :=
  (∃ file, path = dir ++ '/' :: file ∧ '/' ∉ file ∧ dir ≠ []) ∨
  (dir = ['/'] ∧ ('/' ∉ path ∨ ∃ file, path = '/' :: file ∧ '/' ∉ file))

/-- `path` is the path of the cookie set by these attributes in a response from `url` -/
def EffectivePath (url : Url) (as : List Attr) (path : Str) : Prop :=
  lastPath as = some path ∨ (lastPath as = none ∧ DefaultPathOf url.path path)

/-- A well-formed header that no rule rejects. -/
structure Acceptable (env : Env) (url : Url) (name value : Str) (as : List Attr) (path : Str) : Prop where
  nameWf : NameWf name
  valueWf : ValueWf value
  attrs : ∀ a ∈ as, a.Wf env url.host
  pathOf : EffectivePath url as path
  secure : Attr.secure ∈ as → url.scheme = "https".toList
  securePrefix : "__Secure-".toList <+: name → Attr.secure ∈ as
  hostPrefix : "__Host-".toList <+: name → Attr.secure ∈ as ∧ lastDomain as = none ∧ path = ['/']

/-- the expiry a header asks for: Max-Age if present, otherwise Expires -/
def wantedExpiry (env : Env) (now : Int) (as : List Attr) : Option Int :=
  match lastMaxAge as with
  | some m => some (now + m)
  | none => (lastExpires as).bind env.parseHttpDate

/-- A dotted-quad host name. -/
def IsIpv4 (host : Str) : Prop :=
  ∃ a b c d : Str, host = a ++ '.' :: b ++ '.' :: c ++ '.' :: d ∧
    ∀ x ∈ [a, b, c, d], x ≠ [] ∧ ∀ ch ∈ x, ch.isDigit = true

end Verif.Cookies
