import Verif.Util
/-!
# Model of `crates/gosub_engine/src/engine/cookies/cookie_jar.rs`

Externals, taken as parameters or as already-parsed data:
* the `url` crate: a URL is its scheme, host, port and path; its origin is the triple (or opaque);
* the `psl` crate: `Psl`, the public-suffix queries the code makes;
* `parse_http_date` (`chrono`): any function from strings to timestamps;
* the clock: one reading (seconds, milliseconds) per processed header.

`HashMap<String, Vec<Cookie>>` is an association list with distinct keys; its order stands for the
arbitrary iteration order of the map (theorems quantify over every such list).
-/
namespace Verif.Cookies

/-- `url::Url`, the parts used by the jar -/
structure Url where
  scheme : Str
  host : Str
  port : Nat
  path : Str
deriving DecidableEq, Repr

/-- `url.origin().ascii_serialization()`: equal strings iff equal triples; opaque origins all
serialise to `"null"`. -/
inductive Origin where
  | tuple (scheme host : Str) (port : Nat)
  | opaque
deriving DecidableEq, Repr

/-- `Url::origin` (url crate): only http, https, ws, wss and ftp URLs have a tuple origin. -/
def Url.origin (u : Url) : Origin :=
  if u.scheme ∈ ["http".toList, "https".toList, "ws".toList, "wss".toList, "ftp".toList] then
    .tuple u.scheme u.host u.port
  else .opaque

/-- the two questions put to the public suffix list: `psl::List.domain(s)` and
`psl::List.suffix(s).is_some_and(|s| s.is_known())` -/
structure Psl where
  domain : Str → Option Str
  suffixKnown : Str → Bool

/-- everything outside the modelled file -/
structure Env where
  psl : Psl
  parseHttpDate : Str → Option Int

/-- cookies.rs:148-195 `struct Cookie` -/
structure Cookie where
  name : Str
  value : Str
  path : Option Str
  domain : Option Str
  secure : Bool
  expires : Option Int
  sameSite : Option Str
  httpOnly : Bool
  createdAt : Int
deriving DecidableEq, Repr

/-- cookie_jar.rs:122-133 `enum ThirdPartyCookiePolicy` -/
inductive Policy where
  | allow | block | sameSiteNoneOnly
deriving DecidableEq, Repr

/-- cookie_jar.rs:148-160 `enum SameSiteContext` -/
inductive Ctx where
  | sameSite | crossSiteNavigation | crossSite
deriving DecidableEq, Repr

/-- cookie_jar.rs:248-258 `struct DefaultCookieJar` -/
structure Jar where
  entries : List (Origin × List Cookie)
  policy : Policy
deriving DecidableEq, Repr

/-- cookie_jar.rs:37-61 `is_valid_cookie_domain` -/
def isValidCookieDomain (env : Env) (requestHost domain : Str) : Bool :=
  let req := lower requestHost
  let dom := lower domain
  if req ≠ dom ∧ ¬ ('.' :: dom) <:+ req then false
  else if env.psl.domain domain = none ∧ env.psl.suffixKnown domain = true then false
  else true

/-- cookie_jar.rs:106-115 `same_site` -/
def sameSiteHosts (env : Env) (a b : Str) : Bool :=
  match env.psl.domain a, env.psl.domain b with
  | some x, some y => decide (x = y)
  | _, _ => decide (a = b)

/-- `is_third_party`, cookie_jar.rs:292-296 and 476-480 -/
def isThirdParty (env : Env) (url : Url) (topLevel : Option Url) : Bool :=
  match topLevel with
  | some tl => !sameSiteHosts env url.host tl.host
  | none => false

/-- `path().rsplit_once('/')`: the part before the last `/`, if there is one -/
def beforeLastSlash (p : Str) : Option Str :=
  match splitOnce '/' p.reverse with
  | some (_, b) => some b.reverse
  | none => none

/-- `default_path`, cookie_jar.rs:304-307 -/
def defaultPath (url : Url) : Str :=
  match beforeLastSlash url.path with
  | some a => if a = [] then ['/'] else a
  | none => ['/']

/-- Local variables of the attribute loop, cookie_jar.rs:327-345 -/
structure Parse where
  cookie : Cookie
  maxAge : Option Int
  expiresStr : Option Str
  domainRejected : Bool
deriving DecidableEq, Repr

/-- One attribute (a `part` after the first), cookie_jar.rs:355-402; `part` is already trimmed. -/
def parseAttr (env : Env) (requestHost : Str) (p : Parse) (part : Str) : Parse :=
  match splitOnce '=' part with
  | some (k, v) =>
    let key := lower (trim k)
    if key = "path".toList then
      let q := trimBy (· == '"') (trim v)
      if ['/'] <+: q then { p with cookie := { p.cookie with path := some q } }
      else { p with cookie := { p.cookie with path := some (trim v) } }
    else if key = "domain".toList then
      let d := lower (trimStart (· == '.') (trim v))
      if isValidCookieDomain env requestHost d then
        { p with cookie := { p.cookie with domain := some d } }
      else { p with domainRejected := true }
    else if key = "expires".toList then { p with expiresStr := some v }
    else if key = "max-age".toList then { p with maxAge := parseI64 (trim v) }
    else if key = "samesite".toList then
      let val := trim v
      let ss := if eqIgnoreCase val "lax".toList then "Lax".toList
        else if eqIgnoreCase val "strict".toList then "Strict".toList
        else if eqIgnoreCase val "none".toList then "None".toList
        else val
      { p with cookie := { p.cookie with sameSite := some ss } }
    else if key = "secure".toList then { p with cookie := { p.cookie with secure := true } }
    else if key = "httponly".toList then { p with cookie := { p.cookie with httpOnly := true } }
    else p
  | none =>
    if eqIgnoreCase part "secure".toList then { p with cookie := { p.cookie with secure := true } }
    else if eqIgnoreCase part "httponly".toList then
      { p with cookie := { p.cookie with httpOnly := true } }
    else p

/-- initial values, cookie_jar.rs:327-345 -/
def parse0 (name value : Str) : Parse :=
  { cookie := { name, value, path := none, domain := none, secure := false, expires := none,
                sameSite := none, httpOnly := false, createdAt := 0 }
    maxAge := none, expiresStr := none, domainRejected := false }

/-- cookie_jar.rs:405-407 -/
def fillPath (url : Url) (p : Parse) : Parse :=
  if p.cookie.path = none then
    { p with cookie := { p.cookie with path := some (defaultPath url) } }
  else p

/-- The name/value split and the attribute loop, cookie_jar.rs:317-407.  `none`: header skipped. -/
def parseHeader (env : Env) (url : Url) (header : Str) : Option Parse :=
  match splitOnce '=' header with
  | none => none
  | some (name, rest) =>
    let name := trim name
    if name = [] ∨ ';' ∈ name then none
    else
      let parts := (splitOn ';' rest).map trim
      let value := match parts with
        | [] => []
        | v :: _ => v
      some (fillPath url (parts.tail.foldl (parseAttr env url.host) (parse0 name value)))

/-- one clock reading -/
structure Clock where
  sec : Int
  ms : Int
deriving DecidableEq, Repr

/-- Identity of a cookie inside an origin, cookie_jar.rs:440, 462 -/
def sameKey (a b : Cookie) : Bool :=
  decide (a.name = b.name ∧ a.domain = b.domain ∧ a.path = b.path)

/-- What a header does to the bucket: nothing, delete one cookie, or put one. -/
inductive Action where
  | skip
  | delete (c : Cookie)
  | put (c : Cookie)
deriving DecidableEq, Repr

/-- The checks after parsing, cookie_jar.rs:409-455.  `now + ma` is `i64` addition (wrapping in
release builds). -/
def decideAction (env : Env) (url : Url) (thirdParty : Bool) (policy : Policy) (clock : Clock)
    (p : Parse) : Action :=
  let c := p.cookie
  if p.domainRejected then .skip
  else if c.secure = true ∧ url.scheme ≠ "https".toList then .skip
  else if "__Secure-".toList <+: c.name ∧ c.secure = false then .skip
  else if "__Host-".toList <+: c.name ∧
      (c.secure = false ∨ c.domain.isSome ∨ c.path ≠ some ['/']) then .skip
  else
    match p.maxAge with
    | some ma =>
      if ma ≤ 0 then .delete c
      else
        let c := { c with expires := some (wrapI64 (clock.sec + ma)) }
        if thirdParty = true ∧ policy = .sameSiteNoneOnly ∧
            ¬ (c.sameSite = some "None".toList ∧ c.secure = true) then .skip
        else .put c
    | none =>
      let c := { c with expires := p.expiresStr.bind env.parseHttpDate }
      if thirdParty = true ∧ policy = .sameSiteNoneOnly ∧
          ¬ (c.sameSite = some "None".toList ∧ c.secure = true) then .skip
      else .put c

/-- `find(..)` then replace keeping `created_at`, else push; cookie_jar.rs:460-470 -/
def putCookie (ms : Int) (c : Cookie) : List Cookie → List Cookie
  | [] => [{ c with createdAt := ms }]
  | e :: r =>
    if sameKey e c then { c with createdAt := e.createdAt } :: r
    else e :: putCookie ms c r

/-- Effect of one header on the origin's bucket. -/
def applyAction (clock : Clock) (bucket : List Cookie) : Action → List Cookie
  | .skip => bucket
  | .delete c => bucket.filter (fun e => !sameKey e c)
  | .put c => putCookie clock.ms c bucket

/-- one iteration of the header loop, cookie_jar.rs:311-471; `none` = header bytes not UTF-8 -/
def storeHeader (env : Env) (url : Url) (thirdParty : Bool) (policy : Policy)
    (bucket : List Cookie) (h : Option Str × Clock) : List Cookie :=
  match h.1 with
  | none => bucket
  | some s =>
    match parseHeader env url s with
    | none => bucket
    | some p => applyAction h.2 bucket (decideAction env url thirdParty policy h.2 p)

/-- the bucket of an origin, empty if absent -/
def bucketOf (es : List (Origin × List Cookie)) (o : Origin) : List Cookie :=
  match es with
  | [] => []
  | (k, v) :: r => if k = o then v else bucketOf r o

/-- write back a bucket (`entry(origin).or_default()` then mutation) -/
def setBucket (es : List (Origin × List Cookie)) (o : Origin) (b : List Cookie) :
    List (Origin × List Cookie) :=
  match es with
  | [] => [(o, b)]
  | (k, v) :: r => if k = o then (k, b) :: r else (k, v) :: setBucket r o b

/-- cookie_jar.rs:290-472 `store_response_cookies` -/
def store (env : Env) (jar : Jar) (url : Url) (headers : List (Option Str × Clock))
    (topLevel : Option Url) : Jar :=
  let third := isThirdParty env url topLevel
  if third = true ∧ jar.policy = .block then jar
  else
    let bucket := headers.foldl (storeHeader env url third jar.policy)
      (bucketOf jar.entries url.origin)
    { jar with entries := setBucket jar.entries url.origin bucket }

/-- path filter, cookie_jar.rs:544-552 -/
def pathMatches (reqPath : Str) : Option Str → Bool
  | some cp => decide (reqPath = cp) ||
      (cp.isPrefixOf reqPath &&
        (['/'].isSuffixOf cp || ['/'].isPrefixOf (reqPath.drop cp.length)))
  | none => true

/-- domain filter, cookie_jar.rs:531-543 -/
def domainMatches (url : Url) (bucket : Origin) : Option Str → Bool
  | some d => decide (lower url.host = lower d) || ('.' :: lower d).isSuffixOf (lower url.host)
  | none => decide (bucket = url.origin)

/-- SameSite filter, cookie_jar.rs:518-530 -/
def sameSiteOk (ctx : Ctx) (c : Cookie) : Bool :=
  if c.sameSite = some "Strict".toList then decide (ctx = .sameSite)
  else if c.sameSite = some "None".toList then c.secure
  else decide (ctx = .sameSite ∨ ctx = .crossSiteNavigation)

/-- third-party filter, cookie_jar.rs:511-517 -/
def thirdPartyOk (third : Bool) (policy : Policy) (c : Cookie) : Bool :=
  if third = true ∧ policy = .sameSiteNoneOnly then
    decide (c.sameSite = some "None".toList) && c.secure
  else true

/-- expiry filter, cookie_jar.rs:507-510 -/
def expiryOk (now : Int) (c : Cookie) : Bool :=
  match c.expires with
  | none => true
  | some e => decide (e > now)

/-- all filters in order, cookie_jar.rs:507-553 -/
def eligible (jar : Jar) (url : Url) (third : Bool) (ctx : Ctx) (now : Int)
    (bc : Origin × Cookie) : Bool :=
  expiryOk now bc.2 && thirdPartyOk third jar.policy bc.2 && sameSiteOk ctx bc.2 &&
  domainMatches url bc.1 bc.2.domain && pathMatches url.path bc.2.path &&
  (!bc.2.secure || decide (url.scheme = "https".toList))

/-- `str::len`: length in UTF-8 bytes -/
def byteLen (s : Str) : Nat := (s.map Char.utf8Size).sum

/-- the comparison of `sort_by`, cookie_jar.rs:559-563 -/
def sendLe (a b : Cookie) : Bool :=
  let la := (a.path.map byteLen).getD 0
  let lb := (b.path.map byteLen).getD 0
  decide (la > lb) || (decide (la = lb) && decide (a.createdAt ≤ b.createdAt))

/-- all cookies with the origin of their bucket, in iteration order -/
def allCookies (jar : Jar) : List (Origin × Cookie) :=
  jar.entries.flatMap (fun e => e.2.map (fun c => (e.1, c)))

/-- the selected cookies in sending order; `none` when the policy blocks the request -/
def selectCookies (env : Env) (jar : Jar) (url : Url) (topLevel : Option Url) (ctx : Ctx) (now : Int) :
    List Cookie :=
  let third := isThirdParty env url topLevel
  if third = true ∧ jar.policy = .block then []
  else isort sendLe (((allCookies jar).filter (eligible jar url third ctx now)).map (·.2))

/-- cookie_jar.rs:474-576 `get_request_cookies` -/
def getRequestCookies (env : Env) (jar : Jar) (url : Url) (topLevel : Option Url) (ctx : Ctx)
    (now : Int) : Option Str :=
  let header := join "; ".toList
    ((selectCookies env jar url topLevel ctx now).map (fun c => c.name ++ '=' :: c.value))
  if header = [] then none else some header

/-- cookie_jar.rs:578-580 `clear` -/
def clear (jar : Jar) : Jar := { jar with entries := [] }

/-- cookie_jar.rs:598-603 `remove_cookie` -/
def removeCookie (jar : Jar) (url : Url) (name : Str) : Jar :=
  { jar with entries := jar.entries.map (fun e =>
      if e.1 = url.origin then (e.1, e.2.filter (fun c => decide (c.name ≠ name))) else e) }

/-- cookie_jar.rs:605-608 `remove_cookies_for_url` -/
def removeForUrl (jar : Jar) (url : Url) : Jar :=
  { jar with entries := jar.entries.filter (fun e => decide (e.1 ≠ url.origin)) }

/-- unexpired at `now`, cookie_jar.rs:613 -/
def unexpired (now : Int) (c : Cookie) : Bool :=
  match c.expires with
  | none => true
  | some e => decide (e > now)

/-- cookie_jar.rs:610-616 `purge_expired` -/
def purgeExpired (jar : Jar) (now : Int) : Jar :=
  let es := jar.entries.map (fun e => (e.1, e.2.filter (unexpired now)))
  { jar with entries := es.filter (fun e => decide (e.2 ≠ [])) }

/-- cookie_jar.rs:268-279 `new` / `with_policy` -/
def new (policy : Policy) : Jar := { entries := [], policy }

/-- The mutating calls of the `CookieJar` trait. -/
inductive Op where
  | store (url : Url) (headers : List (Option Str × Clock)) (topLevel : Option Url)
  | clear
  | remove (url : Url) (name : Str)
  | removeForUrl (url : Url)
  | purge (now : Int)

def step (env : Env) (jar : Jar) : Op → Jar
  | .store u h t => store env jar u h t
  | .clear => clear jar
  | .remove u n => removeCookie jar u n
  | .removeForUrl u => removeForUrl jar u
  | .purge now => purgeExpired jar now

def run (env : Env) (jar : Jar) (ops : List Op) : Jar := ops.foldl (step env) jar

end Verif.Cookies
