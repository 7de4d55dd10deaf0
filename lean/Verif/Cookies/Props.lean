import Verif.Cookies.Lemmas2
set_option linter.unusedVariables false
/-! # Cookies: C07 - C14, C60, C61 -/
namespace Verif.Cookies

/-! ## Auxiliary facts about `store` and `getRequestCookies` -/

theorem isort_map {α β : Type} (f : α → β) (le : β → β → Bool) (l : List α) :
    isort le (l.map f) = (isort (fun a b => le (f a) (f b)) l).map f := by
  have ins : ∀ a l, insertSorted le (f a) (l.map f) =
      (insertSorted (fun a b => le (f a) (f b)) a l).map f := by
    intro a l
    induction l with
    | nil => rfl
    | cons b l ih =>
      simp only [List.map_cons, insertSorted]
      split
      · rfl
      · rw [List.map_cons, ih]
  induction l with
  | nil => rfl
  | cons a l ih => simp only [List.map_cons, isort]; rw [ih, ins]

/-- The complete description of the `Cookie` header. -/
theorem request_cookies (env : Env) (jar : Jar) (url : Url) (top : Option Url) (ctx : Ctx) (now : Int)
    (hr : Reachable env jar) :
    ∃ cs : List (Origin × Cookie), Answer (getRequestCookies env jar url top ctx now) cs ∧
      (∀ o c, (o, c) ∈ cs ↔ Holds jar o c ∧ ShouldSend env jar.policy url top ctx now o c) ∧
      cs.Nodup ∧ (cs.map (·.2)).Pairwise Before := by
  by_cases hb : isThirdParty env url top = true ∧ jar.policy = .block
  · refine ⟨[], ?_, ?_, by simp, by simp⟩
    · rw [Answer, getRequestCookies_eq]
      simp [selectCookies, hb]
    · intro o c
      simp only [List.not_mem_nil, false_iff, not_and]
      intro _ hs
      exact (hs.2.1 ((isThirdParty_iff _ _ _).mp hb.1)).1 hb.2
  · let cs := isort (fun a b : Origin × Cookie => sendLe a.2 b.2)
      ((allCookies jar).filter (eligible jar url (isThirdParty env url top) ctx now))
    have hsel : selectCookies env jar url top ctx now = cs.map (·.2) := by
      simp only [selectCookies]
      rw [if_neg hb, isort_map]
    have hperm := isort_perm (fun a b : Origin × Cookie => sendLe a.2 b.2)
      ((allCookies jar).filter (eligible jar url (isThirdParty env url top) ctx now))
    refine ⟨cs, ?_, ?_, ?_, ?_⟩
    · rw [Answer, getRequestCookies_eq, hsel]
      simp
    · intro o c
      rw [hperm.mem_iff, List.mem_filter, mem_allCookies, eligible_iff env jar url top ctx now o c hb]
    · exact hperm.nodup_iff.mpr ((nodup_allCookies (inv_reachable hr)).filter _)
    · rw [List.pairwise_map]
      refine List.Pairwise.imp (fun h => (sendLe_iff _ _).mp h) (isort_sorted _ ?_ ?_ _)
      · intro a b c h k
        exact (sendLe_iff _ _).mpr (before_trans _ _ _ ((sendLe_iff _ _).mp h) ((sendLe_iff _ _).mp k))
      · intro a b
        rw [sendLe_iff, sendLe_iff]; exact before_total _ _

theorem store_other_origin {env : Env} {jar : Jar} (hr : Reachable env jar) (url hs top) {o : Origin}
    (ho : o ≠ url.origin) (c : Cookie) :
    Holds (store env jar url hs top) o c ↔ Holds jar o c := by
  have hi := inv_reachable hr
  have hi' := inv_step env hi (.store url hs top)
  rw [holds_iff hi.keys, holds_iff (jar := store env jar url hs top) hi'.keys]
  unfold store
  dsimp only
  split
  · rfl
  · rw [bucketOf_setBucket, if_neg ho]

theorem store_same_origin {env : Env} {jar : Jar} (hr : Reachable env jar) (url hs top)
    (hb : ¬ (isThirdParty env url top = true ∧ jar.policy = .block)) (c : Cookie) :
    Holds (store env jar url hs top) url.origin c ↔
      c ∈ hs.foldl (storeHeader env url (isThirdParty env url top) jar.policy)
        (bucketOf jar.entries url.origin) := by
  have hi := inv_reachable hr
  have hi' := inv_step env hi (.store url hs top)
  rw [holds_iff (jar := store env jar url hs top) hi'.keys]
  unfold store
  dsimp only
  rw [if_neg hb, bucketOf_setBucket, if_pos rfl]

theorem effectivePath_eq {url : Url} {as : List Attr} {path : Str} (h : EffectivePath url as path)
    (n v : Str) : (fillPath url (as.foldl applyAttr (parse0 n v))).cookie.path = some path := by
  unfold fillPath
  rw [fold_path]
  rcases h with h | ⟨h, hd⟩
  · rw [if_neg (by simp [h])]; rw [fold_path, h]
  · rw [if_pos h]
    simp only [Option.some.injEq]
    exact defaultPath_unique (defaultPath_spec url) hd

theorem fillPath_fields (url : Url) (as : List Attr) (n v : Str) :
    let p := fillPath url (as.foldl applyAttr (parse0 n v))
    p.cookie.name = n ∧ p.cookie.value = v ∧ p.cookie.domain = lastDomain as ∧
    p.cookie.secure = decide (Attr.secure ∈ as) ∧ p.cookie.httpOnly = decide (Attr.httpOnly ∈ as) ∧
    p.cookie.sameSite = lastSameSite as ∧ p.maxAge = lastMaxAge as ∧ p.expiresStr = lastExpires as ∧
    p.domainRejected = false := by
  have h := fold_rest as n v
  have h2 := fold_domain as n v
  have h3 := fold_secure as n v
  have h4 := fold_httpOnly as n v
  have h5 := fold_sameSite as n v
  have h6 := fold_maxAge as n v
  have h7 := fold_expires as n v
  dsimp only
  unfold fillPath
  split
  · exact ⟨h.1, h.2.1, h2, h3, h4, h5, h6, h7, h.2.2.1⟩
  · exact ⟨h.1, h.2.1, h2, h3, h4, h5, h6, h7, h.2.2.1⟩

/-! ## C07 one cookie per name, domain and path -/

/-- After any history, an origin has one list of cookies and no two cookies in it have the same name,
domain and path. -/
theorem C07_unique (env : Env) (jar : Jar) (hr : Reachable env jar) :
    (jar.entries.map (·.1)).Nodup ∧
    ∀ o b, (o, b) ∈ jar.entries → b.Pairwise (fun c d => ¬ SameId c d) :=
  ⟨(inv_reachable hr).keys, (inv_reachable hr).uniq⟩

/-- Processing a well-formed, acceptable header stores exactly the cookie it describes: it replaces the
cookie of that origin with the same name, domain and path, keeping its creation time; a new cookie is
created at the current time; every other cookie stays as it was. -/
theorem C07_store_replaces (env : Env) (jar : Jar) (hr : Reachable env jar) (url : Url)
    (top : Option Url) (clock : Clock) (name value path : Str) (as : List Attr)
    (ha : Acceptable env url name value as path)
    (hpol : ThirdParty env url top → jar.policy ≠ .block ∧ (jar.policy = .sameSiteNoneOnly →
      lastSameSite as = some "None".toList ∧ Attr.secure ∈ as))
    (hage : ∀ m, lastMaxAge as = some m → 0 < m ∧ clock.sec + m < 2 ^ 63)
    (hclock : -2 ^ 63 ≤ clock.sec) :
    ∃ c : Cookie,
      (∀ o d, Holds (store env jar url [(some (setCookieText name value as), clock)] top) o d ↔
        (Holds jar o d ∧ ¬ (o = url.origin ∧ SameId d c)) ∨ (o = url.origin ∧ d = c)) ∧
      c.name = name ∧ c.value = value ∧ c.path = some path ∧ c.domain = lastDomain as ∧
      c.secure = decide (Attr.secure ∈ as) ∧ c.httpOnly = decide (Attr.httpOnly ∈ as) ∧
      c.sameSite = lastSameSite as ∧ c.expires = wantedExpiry env clock.sec as ∧
      (∀ old, Holds jar url.origin old → SameId old c → c.createdAt = old.createdAt) ∧
      ((∀ old, Holds jar url.origin old → ¬ SameId old c) → c.createdAt = clock.ms) := by
  have hi := inv_reachable hr
  have hb : ¬ (isThirdParty env url top = true ∧ jar.policy = .block) :=
    fun h => (hpol ((isThirdParty_iff _ _ _).mp h.1)).1 h.2
  obtain ⟨f1, f2, f3, f4, f5, f6, f7, f8, f9⟩ := fillPath_fields url as name value
  have fp := effectivePath_eq ha.pathOf name value
  have hparse := parse_setCookie env url name value as ha.nameWf ha.valueWf ha.attrs
  generalize fillPath url (as.foldl applyAttr (parse0 name value)) = p at *
  have hact : decideAction env url (isThirdParty env url top) jar.policy clock p =
      .put { p.cookie with expires := wantedExpiry env clock.sec as } := by
    unfold decideAction
    dsimp only
    rw [if_neg (by simp [f9]), if_neg, if_neg, if_neg]
    · have hnone : ¬ (isThirdParty env url top = true ∧ jar.policy = .sameSiteNoneOnly ∧
          ¬ (p.cookie.sameSite = some "None".toList ∧ p.cookie.secure = true)) := by
        rintro ⟨h1, h2, h3⟩
        have := (hpol ((isThirdParty_iff _ _ _).mp h1)).2 h2
        exact h3 ⟨f6.trans this.1, by rw [f4]; simpa using this.2⟩
      unfold wantedExpiry
      rw [f7]
      cases hm : lastMaxAge as with
      | some m =>
        have := hage m hm
        dsimp only
        rw [if_neg (by omega), if_neg hnone]
        have hw : wrapI64 (clock.sec + m) = clock.sec + m := by unfold wrapI64; omega
        rw [hw]
      | none =>
        dsimp only
        rw [if_neg hnone, f8]
    · rw [f1, f4, f3, fp]
      rintro ⟨h1, h2⟩
      have h3 := ha.hostPrefix h1
      rcases h2 with h2 | h2 | h2
      · simp [h3.1] at h2
      · simp [h3.2.1] at h2
      · simp [h3.2.2] at h2
    · rw [f1, f4]
      rintro ⟨h1, h2⟩
      have := ha.securePrefix h1
      simp [this] at h2
    · rw [f4]
      rintro ⟨h1, h2⟩
      exact h2 (ha.secure (by simpa using h1))
  have hstep : storeHeader env url (isThirdParty env url top) jar.policy
      (bucketOf jar.entries url.origin) (some (setCookieText name value as), clock) =
      putCookie clock.ms { p.cookie with expires := wantedExpiry env clock.sec as }
        (bucketOf jar.entries url.origin) := by
    simp only [storeHeader, hparse, hact, applyAction]
  generalize hc0 : ({ p.cookie with expires := wantedExpiry env clock.sec as } : Cookie) = c0 at hstep
  have hfind := fun d => mem_putCookie (ms := clock.ms) (c := c0) (d := d) (hi.bucket url.origin)
  have ht : ∀ old, Holds jar url.origin old → SameId old c0 →
      putTime clock.ms c0 (bucketOf jar.entries url.origin) = old.createdAt := by
    intro old ho hs
    rw [holds_iff hi.keys] at ho
    unfold putTime
    split
    · rename_i e he
      have h1 := List.mem_of_find?_eq_some he
      have h2 := (sameKey_iff _ _).mp (List.find?_some (p := fun e => sameKey e c0) he)
      have : e = old := by
        by_contra hne
        have hu := hi.bucket url.origin
        rcases List.pairwise_iff_getElem.mp hu with hu
        obtain ⟨i, hi1, hi2⟩ := List.getElem_of_mem h1
        obtain ⟨j, hj1, hj2⟩ := List.getElem_of_mem ho
        have hij : i ≠ j := by
          rintro rfl; exact hne (hi2.symm.trans hj2)
        rcases Nat.lt_or_gt_of_ne hij with hlt | hlt
        · exact hu i j hi1 hj1 hlt (by rw [hi2, hj2]; exact h2.trans hs.symm)
        · exact hu j i hj1 hi1 hlt (by rw [hi2, hj2]; exact hs.trans h2.symm)
      rw [this]
    · rename_i he
      have := List.find?_eq_none.mp he old ho
      exact absurd ((sameKey_iff _ _).mpr hs) this
  refine ⟨{ c0 with createdAt := putTime clock.ms c0 (bucketOf jar.entries url.origin) }, ?_, ?_⟩
  · intro o d
    by_cases ho : o = url.origin
    · subst ho
      rw [store_same_origin hr url _ top hb]
      simp only [List.foldl_cons, List.foldl_nil]
      rw [hstep, hfind, holds_iff hi.keys]
      simp only [true_and]
      rfl
    · rw [store_other_origin hr url _ top ho]
      simp [ho]
  · subst hc0
    refine ⟨f1, f2, fp, f3, f4, f5, f6, rfl, fun old h1 h2 => ht old h1 h2, ?_⟩
    intro hno
    show putTime _ _ _ = _
    unfold putTime
    split
    · rename_i e he
      have h1 := List.mem_of_find?_eq_some he
      have h2 := (sameKey_iff _ _).mp (List.find?_some (p := fun e => sameKey e _) he)
      exact absurd h2 (hno e ((holds_iff hi.keys _ _).mpr h1))
    · rfl

/-- Whatever a header contains, a cookie that is still there afterwards under the same name, domain and
path has its original creation time. -/
theorem C07_creation_time_kept (env : Env) (jar : Jar) (hr : Reachable env jar) (url : Url)
    (top : Option Url) (header : Option Str) (clock : Clock) (o : Origin) (c d : Cookie)
    (hc : Holds jar o c) (hd : Holds (store env jar url [(header, clock)] top) o d)
    (hs : SameId c d) : d.createdAt = c.createdAt := by
  have hi := inv_reachable hr
  have same : ∀ e, e ∈ bucketOf jar.entries o → SameId e c → e.createdAt = c.createdAt := by
    intro e he hec
    rw [holds_iff hi.keys] at hc
    by_contra hne
    have hu := List.pairwise_iff_getElem.mp (hi.bucket o)
    obtain ⟨i, hi1, hi2⟩ := List.getElem_of_mem he
    obtain ⟨j, hj1, hj2⟩ := List.getElem_of_mem hc
    have hij : i ≠ j := by
      rintro rfl; exact hne (by rw [← hi2, ← hj2])
    rcases Nat.lt_or_gt_of_ne hij with hlt | hlt
    · exact hu i j hi1 hj1 hlt (by rw [hi2, hj2]; exact hec)
    · exact hu j i hj1 hi1 hlt (by rw [hi2, hj2]; exact hec.symm)
  by_cases ho : o = url.origin
  · subst ho
    by_cases hb : isThirdParty env url top = true ∧ jar.policy = .block
    · have : store env jar url [(header, clock)] top = jar := by
        unfold store; dsimp only; rw [if_pos hb]
      rw [this, holds_iff hi.keys] at hd
      exact same d hd hs.symm
    · rw [store_same_origin hr url _ top hb] at hd
      simp only [List.foldl_cons, List.foldl_nil, storeHeader] at hd
      split at hd
      · exact same d hd hs.symm
      · split at hd
        · exact same d hd hs.symm
        · rename_i p hp
          generalize decideAction env url _ jar.policy clock p = a at hd
          cases a with
          | skip => exact same d hd hs.symm
          | delete x => exact same d (List.mem_filter.mp hd).1 hs.symm
          | put x =>
            simp only [applyAction] at hd
            rcases (mem_putCookie (hi.bucket _)).mp hd with ⟨hd, _⟩ | hd
            · exact same d hd hs.symm
            · subst hd
              show putTime clock.ms x (bucketOf jar.entries url.origin) = c.createdAt
              unfold putTime
              split
              · rename_i e he
                have h1 := List.mem_of_find?_eq_some he
                have h2 := (sameKey_iff _ _).mp (List.find?_some (p := fun e => sameKey e _) he)
                exact same e h1 (h2.trans hs.symm)
              · rename_i he
                have := List.find?_eq_none.mp he c ((holds_iff hi.keys _ _).mp hc)
                exact absurd ((sameKey_iff _ _).mpr hs) this
  · rw [store_other_origin hr url _ top ho, holds_iff hi.keys] at hd
    exact same d hd hs.symm

/-- A response only affects the cookies of its own origin. -/
theorem C07_other_origins_untouched (env : Env) (jar : Jar) (hr : Reachable env jar) (url : Url)
    (top : Option Url) (headers : List (Option Str × Clock)) (o : Origin) (ho : o ≠ url.origin)
    (c : Cookie) : Holds (store env jar url headers top) o c ↔ Holds jar o c :=
  store_other_origin hr url headers top ho c

/-! ## C08 the Cookie header carries exactly the matching cookies -/

theorem C08_request_carries_exactly_matching (env : Env) (jar : Jar) (hr : Reachable env jar)
    (url : Url) (top : Option Url) (ctx : Ctx) (now : Int) :
    ∃ cs : List (Origin × Cookie), Answer (getRequestCookies env jar url top ctx now) cs ∧
      cs.Nodup ∧
      ∀ o c, (o, c) ∈ cs ↔ Holds jar o c ∧ ShouldSend env jar.policy url top ctx now o c := by
  obtain ⟨cs, h1, h2, h3, _⟩ := request_cookies env jar url top ctx now hr
  exact ⟨cs, h1, h3, h2⟩

/-! ## C09 secure cookies -/

theorem origin_https {url : Url} (h : url.scheme = "https".toList) :
    url.origin = .tuple "https".toList url.host url.port := by
  unfold Url.origin; rw [h]; rfl

theorem scheme_of_origin {url : Url} {s h : Str} {p : Nat} (e : url.origin = .tuple s h p) :
    url.scheme = s := by
  unfold Url.origin at e
  split at e
  · simp at e; exact e.1
  · simp at e

/-- Over any history, every stored secure cookie belongs to an https origin. -/
theorem C09_secure_stored_only_from_https (env : Env) (jar : Jar) (hr : Reachable env jar) (o : Origin)
    (c : Cookie) (h : Holds jar o c) (hs : c.secure = true) :
    ∃ host port, o = .tuple "https".toList host port := by
  have := holds_induct (fun o c => c.secure = true → ∃ host port, o = .tuple "https".toList host port)
    (fun url third policy hs c hp hsec => ⟨_, _, origin_https (hp.facts.https hsec)⟩) hr o c h
  exact this hs

/-- A response that did not come over https neither adds, changes nor removes a secure cookie. -/
theorem C09_insecure_response_leaves_secure_cookies (env : Env) (jar : Jar) (hr : Reachable env jar)
    (url : Url) (top : Option Url) (headers : List (Option Str × Clock))
    (hu : url.scheme ≠ "https".toList) (o : Origin) (c : Cookie) (hs : c.secure = true) :
    Holds (store env jar url headers top) o c ↔ Holds jar o c := by
  constructor
  · intro h
    rcases holds_store h with h | ⟨_, hp, _⟩
    · exact h
    · exact absurd (hp.facts.https hs) hu
  · intro h
    obtain ⟨host, port, ho⟩ := C09_secure_stored_only_from_https env jar hr o c h hs
    refine (store_other_origin hr url headers top ?_ c).mpr h
    rintro rfl
    exact hu (scheme_of_origin ho)

/-- A request that does not use https carries no secure cookie. -/
theorem C09_secure_never_sent_insecurely (env : Env) (jar : Jar) (hr : Reachable env jar) (url : Url)
    (top : Option Url) (ctx : Ctx) (now : Int) (hu : url.scheme ≠ "https".toList) :
    ∃ cs, Answer (getRequestCookies env jar url top ctx now) cs ∧
      ∀ oc ∈ cs, Holds jar oc.1 oc.2 ∧ oc.2.secure = false := by
  obtain ⟨cs, h1, h2, h3, _⟩ := request_cookies env jar url top ctx now hr
  refine ⟨cs, h1, fun oc hoc => ?_⟩
  have := (h2 oc.1 oc.2).mp hoc
  refine ⟨this.1, ?_⟩
  by_contra hne
  exact hu (this.2.2.2.2.2.2.2 (by simpa using hne))

/-! ## C10 expiry -/

theorem C10_expired_never_sent (env : Env) (jar : Jar) (hr : Reachable env jar) (url : Url)
    (top : Option Url) (ctx : Ctx) (now : Int) :
    ∃ cs, Answer (getRequestCookies env jar url top ctx now) cs ∧
      ∀ oc ∈ cs, Holds jar oc.1 oc.2 ∧ ∀ e, oc.2.expires = some e → now < e := by
  obtain ⟨cs, h1, h2, h3, _⟩ := request_cookies env jar url top ctx now hr
  refine ⟨cs, h1, fun oc hoc => ?_⟩
  have := (h2 oc.1 oc.2).mp hoc
  exact ⟨this.1, this.2.1⟩

/-- Purging removes exactly the expired cookies. -/
theorem C10_purge_exact (jar : Jar) (now : Int) (o : Origin) (c : Cookie) :
    Holds (purgeExpired jar now) o c ↔ Holds jar o c ∧ Unexpired now c := holds_purge

/-- `Max-Age` zero or negative removes the cookie with that name, domain and path, and nothing else. -/
theorem C10_max_age_nonpositive_deletes (env : Env) (jar : Jar) (hr : Reachable env jar) (url : Url)
    (top : Option Url) (clock : Clock) (name value path : Str) (as : List Attr)
    (ha : Acceptable env url name value as path)
    (hpol : ThirdParty env url top → jar.policy ≠ .block)
    (m : Int) (hm : lastMaxAge as = some m) (hm0 : m ≤ 0) (o : Origin) (d : Cookie) :
    Holds (store env jar url [(some (setCookieText name value as), clock)] top) o d ↔
      Holds jar o d ∧ ¬ (o = url.origin ∧ d.name = name ∧ d.domain = lastDomain as ∧ d.path = some path) := by
  have hi := inv_reachable hr
  have hb : ¬ (isThirdParty env url top = true ∧ jar.policy = .block) :=
    fun h => (hpol ((isThirdParty_iff _ _ _).mp h.1)) h.2
  obtain ⟨f1, f2, f3, f4, f5, f6, f7, f8, f9⟩ := fillPath_fields url as name value
  have fp := effectivePath_eq ha.pathOf name value
  have hparse := parse_setCookie env url name value as ha.nameWf ha.valueWf ha.attrs
  generalize fillPath url (as.foldl applyAttr (parse0 name value)) = p at *
  have hact : decideAction env url (isThirdParty env url top) jar.policy clock p = .delete p.cookie := by
    unfold decideAction
    dsimp only
    rw [if_neg (by simp [f9]), if_neg, if_neg, if_neg]
    · rw [f7, hm]
      dsimp only
      rw [if_pos hm0]
    · rw [f1, f4, f3, fp]
      rintro ⟨h1, h2⟩
      have h3 := ha.hostPrefix h1
      rcases h2 with h2 | h2 | h2
      · simp [h3.1] at h2
      · simp [h3.2.1] at h2
      · simp [h3.2.2] at h2
    · rw [f1, f4]
      rintro ⟨h1, h2⟩
      have := ha.securePrefix h1
      simp [this] at h2
    · rw [f4]
      rintro ⟨h1, h2⟩
      exact h2 (ha.secure (by simpa using h1))
  by_cases ho : o = url.origin
  · subst ho
    rw [store_same_origin hr url _ top hb]
    simp only [List.foldl_cons, List.foldl_nil, storeHeader, hparse, hact, applyAction,
      List.mem_filter, holds_iff hi.keys, true_and]
    have : (!sameKey d p.cookie) = true ↔ ¬ (d.name = name ∧ d.domain = lastDomain as ∧ d.path = some path) := by
      rw [← f1, ← f3, ← fp]; simp only [sameKey, Bool.not_eq_true', decide_eq_false_iff_not]
    rw [this]
  · rw [store_other_origin hr url _ top ho]
    simp [ho]

/-- When both are present, `Max-Age` decides and `Expires` is ignored. -/
theorem C10_max_age_beats_expires (env : Env) (jar : Jar) (hr : Reachable env jar) (url : Url)
    (top : Option Url) (clock : Clock) (name value path : Str) (as : List Attr)
    (ha : Acceptable env url name value as path)
    (hpol : ThirdParty env url top → jar.policy ≠ .block ∧ (jar.policy = .sameSiteNoneOnly →
      lastSameSite as = some "None".toList ∧ Attr.secure ∈ as))
    (m : Int) (hm : lastMaxAge as = some m) (hm0 : 0 < m) (hov : clock.sec + m < 2 ^ 63)
    (hclock : -2 ^ 63 ≤ clock.sec) :
    ∃ c, Holds (store env jar url [(some (setCookieText name value as), clock)] top) url.origin c ∧
      c.name = name ∧ c.domain = lastDomain as ∧ c.path = some path ∧
      c.expires = some (clock.sec + m) := by
  obtain ⟨c, h1, h2, _, h4, h5, _, _, _, h9, _⟩ := C07_store_replaces env jar hr url top clock name value
    path as ha hpol (by intro m' hm'; rw [hm] at hm'; simp at hm'; subst hm'; exact ⟨hm0, hov⟩) hclock
  refine ⟨c, (h1 _ _).mpr (Or.inr ⟨rfl, rfl⟩), h2, h5, h4, ?_⟩
  rw [h9]; simp [wantedExpiry, hm]

/-! ## C11 cross-site rules -/

/-- On a cross-site request a `Strict` cookie is never sent, a `Lax` one only on a top-level
navigation, and a `None` one only if it is secure. -/
theorem C11_same_site_rules (env : Env) (jar : Jar) (hr : Reachable env jar) (url : Url)
    (top : Option Url) (ctx : Ctx) (now : Int) (hctx : ctx ≠ .sameSite) :
    ∃ cs, Answer (getRequestCookies env jar url top ctx now) cs ∧
      ∀ oc ∈ cs, Holds jar oc.1 oc.2 ∧ ¬ IsStrict oc.2 ∧ (IsNone oc.2 → oc.2.secure = true) ∧
        (IsLax oc.2 → ctx = .crossSiteNavigation) := by
  obtain ⟨cs, h1, h2, h3, _⟩ := request_cookies env jar url top ctx now hr
  refine ⟨cs, h1, fun oc hoc => ?_⟩
  have := (h2 oc.1 oc.2).mp hoc
  obtain ⟨a, b, c⟩ := this.2.2.2.1
  refine ⟨this.1, fun h => hctx (a h), b, fun h => ?_⟩
  have := c h
  cases ctx with
  | sameSite => exact absurd rfl hctx
  | crossSiteNavigation => rfl
  | crossSite => exact absurd rfl this

/-- With third-party cookies blocked, a third-party response stores nothing and a third-party request
carries nothing. -/
theorem C11_blocked_third_party (env : Env) (jar : Jar) (hp : jar.policy = .block) (url : Url)
    (top : Option Url) (ht : ThirdParty env url top) (headers : List (Option Str × Clock)) (ctx : Ctx)
    (now : Int) :
    store env jar url headers top = jar ∧ getRequestCookies env jar url top ctx now = none := by
  have h := (isThirdParty_iff env url top).mpr ht
  constructor
  · simp [store, h, hp]
  · rw [getRequestCookies_eq]; simp [selectCookies, h, hp]

/-- With only `SameSite=None; Secure` third-party cookies allowed, a third-party response adds no other
cookie and a third-party request carries no other cookie. -/
theorem C11_none_only_third_party (env : Env) (jar : Jar) (hr : Reachable env jar)
    (hp : jar.policy = .sameSiteNoneOnly) (url : Url) (top : Option Url) (ht : ThirdParty env url top)
    (headers : List (Option Str × Clock)) (ctx : Ctx) (now : Int) :
    (∀ o c, Holds (store env jar url headers top) o c →
      Holds jar o c ∨ (IsNone c ∧ c.secure = true)) ∧
    ∃ cs, Answer (getRequestCookies env jar url top ctx now) cs ∧
      ∀ oc ∈ cs, Holds jar oc.1 oc.2 ∧ IsNone oc.2 ∧ oc.2.secure = true := by
  refine ⟨?_, ?_⟩
  · intro o c h
    rcases holds_store h with h | ⟨_, hf, _⟩
    · exact Or.inl h
    · exact Or.inr (hf.facts.noneOnly ((isThirdParty_iff _ _ _).mpr ht) hp)
  · obtain ⟨cs, h1, h2, h3, _⟩ := request_cookies env jar url top ctx now hr
    refine ⟨cs, h1, fun oc hoc => ?_⟩
    have := (h2 oc.1 oc.2).mp hoc
    exact ⟨this.1, (this.2.2.1 ht).2 hp⟩

/-! ## C12 domain isolation -/

/-- Every cookie a response adds belongs to the response's origin, and its domain, if any, is the host
or a dotted suffix of it and not a known public suffix. -/
theorem C12_set_only_for_own_domains_partial (env : Env) (jar : Jar) (url : Url) (top : Option Url)
    (headers : List (Option Str × Clock)) (o : Origin) (c : Cookie)
    (hnew : Holds (store env jar url headers top) o c) (hold : ¬ Holds jar o c) :
    o = url.origin ∧ ∀ d, c.domain = some d → AtOrBelow url.host d ∧ ¬ PublicSuffix env d := by
  rcases holds_store hnew with h | ⟨h1, h2, _⟩
  · exact absurd h hold
  · exact ⟨h1, fun d hd => (validDomain_iff _ _ _).mp (h2.facts.domain d hd)⟩

/-- A host-only cookie is sent only to the origin that set it, a domain cookie only to hosts equal to or
below its domain. -/
theorem C12_sent_only_to_own_domains (env : Env) (jar : Jar) (hr : Reachable env jar) (url : Url)
    (top : Option Url) (ctx : Ctx) (now : Int) :
    ∃ cs, Answer (getRequestCookies env jar url top ctx now) cs ∧
      ∀ oc ∈ cs, Holds jar oc.1 oc.2 ∧ (oc.2.domain = none → oc.1 = url.origin) ∧
        (∀ d, oc.2.domain = some d → AtOrBelow url.host d) := by
  obtain ⟨cs, h1, h2, h3, _⟩ := request_cookies env jar url top ctx now hr
  refine ⟨cs, h1, fun oc hoc => ?_⟩
  have := (h2 oc.1 oc.2).mp hoc
  exact ⟨this.1, this.2.2.2.2.2.1, this.2.2.2.2.1⟩

/-! ## C13 name prefixes -/

theorem C13_prefixes (env : Env) (jar : Jar) (hr : Reachable env jar) (o : Origin) (c : Cookie)
    (h : Holds jar o c) :
    ("__Secure-".toList <+: c.name → c.secure = true ∧ ∃ host port, o = .tuple "https".toList host port) ∧
    ("__Host-".toList <+: c.name → c.secure = true ∧ c.domain = none ∧ c.path = some "/".toList ∧
      ∃ host port, o = .tuple "https".toList host port) := by
  have hs := C09_secure_stored_only_from_https env jar hr o c h
  have := holds_induct (fun o c => ("__Secure-".toList <+: c.name → c.secure = true) ∧
      ("__Host-".toList <+: c.name → c.secure = true ∧ c.domain = none ∧ c.path = some ['/']))
    (fun url third policy hs c hp => ⟨hp.facts.secPrefix, hp.facts.hostPrefix⟩) hr o c h
  refine ⟨fun hp => ⟨this.1 hp, hs (this.1 hp)⟩, fun hp => ?_⟩
  obtain ⟨a, b, d⟩ := this.2 hp
  exact ⟨a, b, d, hs a⟩

/-! ## C14 order -/

/-- The header lists each sent cookie once, longer paths first, then by creation time. -/
theorem C14_header_order (env : Env) (jar : Jar) (hr : Reachable env jar) (url : Url)
    (top : Option Url) (ctx : Ctx) (now : Int) :
    ∃ cs, Answer (getRequestCookies env jar url top ctx now) cs ∧ cs.Nodup ∧
      (∀ o c, (o, c) ∈ cs ↔ Holds jar o c ∧ ShouldSend env jar.policy url top ctx now o c) ∧
      ∀ i j (hij : i < j) (hj : j < cs.length),
        pathLen cs[j].2 < pathLen cs[i].2 ∨
        (pathLen cs[i].2 = pathLen cs[j].2 ∧ cs[i].2.createdAt ≤ cs[j].2.createdAt) := by
  obtain ⟨cs, h1, h2, h3, h4⟩ := request_cookies env jar url top ctx now hr
  refine ⟨cs, h1, h3, h2, ?_⟩
  intro i j hij hj
  rw [List.pairwise_map] at h4
  exact List.pairwise_iff_getElem.mp h4 i j (by omega) hj hij

/-! ## C60 the Cookie header is unambiguous -/

/-- Splitting the header at `;`, trimming, and splitting each piece at the first `=` gives back the
name and value of every sent cookie, in order. -/
theorem C60_header_unambiguous (env : Env) (jar : Jar) (hr : Reachable env jar) (url : Url)
    (top : Option Url) (ctx : Ctx) (now : Int) :
    ∃ cs : List (Origin × Cookie), Answer (getRequestCookies env jar url top ctx now) cs ∧
      (∀ o c, (o, c) ∈ cs ↔ Holds jar o c ∧ ShouldSend env jar.policy url top ctx now o c) ∧
      ∀ text, getRequestCookies env jar url top ctx now = some text →
        ((splitOn ';' text).map trim).map (splitOnce '=') =
          cs.map (fun oc => some (oc.2.name, oc.2.value)) := by
  obtain ⟨cs, h1, h2, h3, h4⟩ := request_cookies env jar url top ctx now hr
  refine ⟨cs, h1, h2, ?_⟩
  intro text ht
  rw [h1] at ht
  by_cases hne : cs = []
  · rw [if_pos hne] at ht; simp at ht
  · rw [if_neg hne] at ht
    simp only [Option.some.injEq] at ht
    rw [← ht, header_split (cs.map (·.2)) (by simpa using hne), List.map_map]
    · rfl
    · intro c hc
      obtain ⟨⟨o, c'⟩, hoc, rfl⟩ := List.mem_map.mp hc
      have hh := ((h2 o c').mp hoc).1
      refine holds_induct (fun o c => ';' ∉ c.name ∧ ';' ∉ c.value ∧ '=' ∉ c.name ∧ c.name ≠ [] ∧
        Trimmed c.name ∧ Trimmed c.value) ?_ hr o c' hh
      intro url third policy hs c hp
      have f := hp.facts
      obtain ⟨s, hs⟩ := f.name_trim
      obtain ⟨s', hs'⟩ := f.value_trim
      exact ⟨f.name_semi, f.value_semi, f.name_eq, f.name_ne, hs ▸ trimmed_trim s, hs' ▸ trimmed_trim s'⟩

/-! ## C61 removal is exact -/

theorem C61_removals_exact (jar : Jar) (url : Url) (name : Str) (o : Origin) (c : Cookie) :
    (Holds (removeCookie jar url name) o c ↔ Holds jar o c ∧ ¬ (o = url.origin ∧ c.name = name)) ∧
    (Holds (removeForUrl jar url) o c ↔ Holds jar o c ∧ o ≠ url.origin) ∧
    ¬ Holds (clear jar) o c := by
  refine ⟨⟨?_, ?_⟩, holds_removeForUrl, holds_clear⟩
  · rintro ⟨b, hb, hc⟩
    simp only [removeCookie, List.mem_map] at hb
    obtain ⟨e, he, heq⟩ := hb
    split at heq
    · rename_i hk
      simp at heq
      rw [← heq.2] at hc
      have := List.mem_filter.mp hc
      refine ⟨⟨e.2, by rw [← heq.1]; exact he, this.1⟩, fun h => ?_⟩
      simp [h.2] at this
    · rename_i hk
      subst heq
      exact ⟨⟨_, he, hc⟩, fun h => hk h.1⟩
  · rintro ⟨⟨b, hb, hc⟩, hn⟩
    by_cases ho : o = url.origin
    · refine ⟨b.filter (fun c => decide (c.name ≠ name)), ?_, ?_⟩
      · simp only [removeCookie, List.mem_map]
        exact ⟨(o, b), hb, by simp [ho]⟩
      · exact List.mem_filter.mpr ⟨hc, by simpa using fun h => hn ⟨ho, h⟩⟩
    · refine ⟨b, ?_, hc⟩
      simp only [removeCookie, List.mem_map]
      exact ⟨(o, b), hb, by simp [ho]⟩

/-! ## Witnesses: the hypotheses are met by ordinary cases, and the code's violations -/

/-- a toy public suffix list: `com` and `org` are known suffixes -/
def exEnv : Env where
  psl := { domain := fun s => if s = "com".toList ∨ s = "org".toList ∨ s = [] then none else some s
           suffixKnown := fun s => decide (s = "com".toList ∨ s = "org".toList) }
  parseHttpDate := fun _ => none

def exUrl : Url := ⟨"https".toList, "example.com".toList, 443, "/a/b".toList⟩
def exHttp : Url := ⟨"http".toList, "example.com".toList, 80, "/a/b".toList⟩
def exClock : Clock := ⟨100, 100000⟩
def exAttrs : List Attr := [.path "/a".toList, .maxAge 60, .expires "x".toList, .sameSite .lax, .secure]

/-- one stored cookie -/
def exJar : Jar := store exEnv (new .allow) exUrl
  [(some (setCookieText "sid".toList "1".toList exAttrs), exClock)] none

example : Reachable exEnv exJar :=
  ⟨.allow, [.store exUrl [(some (setCookieText "sid".toList "1".toList exAttrs), exClock)] none], rfl⟩

/-- the hypotheses of the storing theorems hold for an ordinary header -/
example : Acceptable exEnv exUrl "sid".toList "1".toList exAttrs "/a".toList := by
  refine ⟨⟨by decide, by decide, by decide, ?_⟩, ⟨by decide, ?_⟩, ?_, Or.inl (by decide), by decide,
    by decide, by decide⟩
  · constructor <;> intro c hc <;> simp at hc <;> subst hc <;> decide
  · constructor <;> intro c hc <;> simp at hc <;> subst hc <;> decide
  · intro a ha
    simp only [exAttrs, List.mem_cons, List.not_mem_nil, or_false] at ha
    rcases ha with rfl | rfl | rfl | rfl | rfl
    · refine ⟨⟨_, rfl⟩, by decide, ?_, by decide⟩
      constructor <;> intro c hc <;> simp at hc <;> subst hc <;> decide
    · show 60 < 2 ^ 63; decide
    · refine ⟨by decide, ?_⟩
      constructor <;> intro c hc <;> simp at hc <;> subst hc <;> decide
    · trivial
    · trivial

example : getRequestCookies exEnv exJar exUrl none .sameSite 159 = some "sid=1".toList := by decide
example : getRequestCookies exEnv exJar exUrl none .sameSite 160 = none := by decide
example : getRequestCookies exEnv exJar exUrl none .crossSite 150 = none := by decide
example : getRequestCookies exEnv exJar exHttp none .sameSite 150 = none := by decide
example : exHttp.scheme ≠ "https".toList := by decide
example : ThirdParty exEnv exUrl (some ⟨"https".toList, "other.org".toList, 443, "/".toList⟩) :=
  (isThirdParty_iff _ _ _).mp (by decide)
/-- a header that deletes: the hypotheses of `C10_max_age_nonpositive_deletes` -/
example : lastMaxAge [.path "/a".toList, .maxAge 0] = some 0 := by decide
example : getRequestCookies exEnv (store exEnv exJar exUrl
    [(some "sid=; Path=/a; Max-Age=0".toList, exClock)] none) exUrl none .sameSite 150 = none := by decide
/-- new cookie with a domain, as in `C12_set_only_for_own_domains_partial` -/
example : getRequestCookies exEnv (store exEnv (new .allow) ⟨"https".toList, "www.example.com".toList, 443, "/".toList⟩
    [(some "k=v; Domain=.Example.com".toList, exClock)] none) exUrl none .sameSite 150
    = some "k=v".toList := by decide
/-- a `__Host-` cookie that is stored -/
example : getRequestCookies exEnv (store exEnv (new .allow) exUrl
    [(some "__Host-k=v; Secure; Path=/".toList, exClock)] none) exUrl none .sameSite 150
    = some "__Host-k=v".toList := by decide
/-- two cookies: longer path first although created later -/
example : getRequestCookies exEnv (store exEnv (new .allow) exUrl
    [(some "x=1; Path=/".toList, exClock), (some "y=2; Path=/a".toList, ⟨101, 101000⟩)] none) exUrl none
    .sameSite 150 = some "y=2; x=1".toList := by decide

/-- C12 fails for IP addresses: `127.0.0.1` may set a cookie for `0.0.1`, which is then sent to the
unrelated host `9.0.0.1`. -/
theorem C12_ip_hosts_violated :
    IsIpv4 "127.0.0.1".toList ∧ IsIpv4 "9.0.0.1".toList ∧
    getRequestCookies exEnv (store exEnv (new .allow) ⟨"http".toList, "127.0.0.1".toList, 80, "/".toList⟩
      [(some "k=v; Domain=0.0.1".toList, exClock)] none)
      ⟨"http".toList, "9.0.0.1".toList, 80, "/".toList⟩ none .sameSite 150 = some "k=v".toList := by
  refine ⟨⟨"127".toList, "0".toList, "0".toList, "1".toList, rfl, by decide⟩,
    ⟨"9".toList, "0".toList, "0".toList, "1".toList, rfl, by decide⟩, by decide⟩

/-- C12 fails for host names with a trailing dot: an empty `Domain` is accepted and the cookie is then
sent to every other host with a trailing dot. -/
theorem C12_trailing_dot_violated :
    getRequestCookies exEnv (store exEnv (new .allow) ⟨"http".toList, "bank.com.".toList, 80, "/".toList⟩
      [(some "k=v; Domain=".toList, exClock)] none)
      ⟨"http".toList, "evil.org.".toList, 80, "/".toList⟩ none .sameSite 150 = some "k=v".toList := by
  decide

/-- C10 fails for huge `Max-Age`: `now + max_age` overflows `i64`, so the cookie that should live
longest is never sent. -/
theorem C10_max_age_overflow_violated :
    getRequestCookies exEnv (store exEnv (new .allow) exUrl
      [(some "k=v; Max-Age=9223372036854775807".toList, exClock)] none) exUrl none .sameSite 100 = none := by
  decide

/-- A third-party response under the "only SameSite=None" policy cannot add a Lax cookie but can delete
one: the deletion is processed before the policy check. -/
theorem C11_none_only_can_delete :
    let top : Option Url := some ⟨"https".toList, "other.org".toList, 443, "/".toList⟩
    let jar := store exEnv (new .sameSiteNoneOnly) exUrl [(some "k=v".toList, exClock)] none
    let jar' := store exEnv jar exUrl [(some "k=v; Max-Age=0".toList, exClock)] top
    getRequestCookies exEnv jar exUrl none .sameSite 100 = some "k=v".toList ∧
    getRequestCookies exEnv jar' exUrl none .sameSite 100 = none := by decide

end Verif.Cookies
