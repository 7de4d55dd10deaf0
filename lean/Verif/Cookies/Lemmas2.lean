import Verif.Cookies.Lemmas
import Verif.StrLemmas
set_option linter.unusedVariables false
namespace Verif.Cookies

/-! ## Parsing a rendered Set-Cookie header -/

/-- the effect of one structured attribute -/
def applyAttr (p : Parse) : Attr → Parse
  | .path q => { p with cookie := { p.cookie with path := some q } }
  | .domain d => { p with cookie := { p.cookie with domain := some d } }
  | .maxAge n => { p with maxAge := some (n : Int) }
  | .maxAgeNeg n => { p with maxAge := some (-(n : Int)) }
  | .expires s => { p with expiresStr := some s }
  | .sameSite k => { p with cookie := { p.cookie with sameSite := some k.text } }
  | .secure => { p with cookie := { p.cookie with secure := true } }
  | .httpOnly => { p with cookie := { p.cookie with httpOnly := true } }

theorem trimmed_ne_head {s : Str} {c d : Char} (h : s.head? = some c) (hd : c ≠ d) :
    ∀ x, s.head? = some x → (x == d) = false := by
  intro x hx; rw [h] at hx; simp at hx; subst hx; simpa using hd

theorem parseAttr_text (env : Env) (host : Str) (p : Parse) (a : Attr) (h : a.Wf env host) :
    parseAttr env host p a.text = applyAttr p a := by
  cases a with
  | path q =>
    obtain ⟨⟨r, hr⟩, h2, h3, h4⟩ := h
    have e : splitOnce '=' (Attr.path q).text = some ("Path".toList, q) :=
      splitOnce_append '=' "Path".toList q (by decide)
    have hq : trimBy (· == '"') (trim q) = q := by
      rw [trim_of_trimmed h3]
      refine trimBy_eq_self ?_ ?_
      · intro c hc; rw [hr] at hc; simp at hc; subst hc; decide
      · intro c hc; simp only [beq_eq_false_iff_ne, ne_eq]; rintro rfl; exact h4 hc
    unfold parseAttr
    rw [e]
    dsimp only
    rw [if_pos (by decide), hq, if_pos (by rw [hr]; exact ⟨r, rfl⟩)]
    rfl
  | domain d =>
    obtain ⟨_, h2, h3, h4, h5, h6, h7⟩ := h
    have e : splitOnce '=' (Attr.domain d).text = some ("Domain".toList, d) :=
      splitOnce_append '=' "Domain".toList d (by decide)
    have hd : lower (trimStart (· == '.') (trim d)) = d := by
      rw [trim_of_trimmed h3]
      unfold trimStart
      rw [dropWhile_eq_self, h5]
      intro c hc; simp only [beq_eq_false_iff_ne, ne_eq]; rintro rfl; exact h4 hc
    unfold parseAttr
    rw [e]
    dsimp only
    rw [if_neg (by decide), if_pos (by decide), hd, if_pos ((validDomain_iff env host d).mpr ⟨h6, h7⟩)]
    rfl
  | maxAge n =>
    have e : splitOnce '=' (Attr.maxAge n).text = some ("Max-Age".toList, Nat.toDigits 10 n) :=
      splitOnce_append '=' "Max-Age".toList _ (by decide)
    unfold parseAttr
    rw [e]
    dsimp only
    rw [if_neg (by decide), if_neg (by decide), if_neg (by decide), if_pos (by decide),
      trim_of_trimmed (trimmed_toDigits n), parseI64_pos n h]
    rfl
  | maxAgeNeg n =>
    have e : splitOnce '=' (Attr.maxAgeNeg n).text = some ("Max-Age".toList, '-' :: Nat.toDigits 10 n) :=
      splitOnce_append '=' "Max-Age".toList _ (by decide)
    have ht : Trimmed ('-' :: Nat.toDigits 10 n) := by
      refine ⟨by intro c hc; simp at hc; subst hc; decide, ?_⟩
      intro c hc
      have hne : Nat.toDigits 10 n ≠ [] := Nat.toDigits_ne_nil
      rw [List.getLast?_cons_of_ne_nil hne] at hc
      exact (trimmed_toDigits n).2 c hc
    unfold parseAttr
    rw [e]
    dsimp only
    rw [if_neg (by decide), if_neg (by decide), if_neg (by decide), if_pos (by decide),
      trim_of_trimmed ht, parseI64_neg n h]
    rfl
  | expires s =>
    have e : splitOnce '=' (Attr.expires s).text = some ("Expires".toList, s) :=
      splitOnce_append '=' "Expires".toList s (by decide)
    unfold parseAttr
    rw [e]
    dsimp only
    rw [if_neg (by decide), if_neg (by decide), if_pos (by decide)]
    rfl
  | sameSite k =>
    have e : splitOnce '=' (Attr.sameSite k).text = some ("SameSite".toList, k.text) :=
      splitOnce_append '=' "SameSite".toList k.text (by decide)
    unfold parseAttr
    rw [e]
    dsimp only
    rw [if_neg (by decide), if_neg (by decide), if_neg (by decide), if_neg (by decide), if_pos (by decide)]
    cases k <;> rfl
  | secure => rfl
  | httpOnly => rfl

theorem attr_nosemi (env : Env) (host : Str) (a : Attr) (h : a.Wf env host) : ';' ∉ a.text := by
  have app : ∀ (x y : Str), ';' ∉ x → ';' ∉ y → ';' ∉ x ++ y := by
    intro x y hx hy; simp only [List.mem_append, not_or]; exact ⟨hx, hy⟩
  have dig : ∀ n, ';' ∉ Nat.toDigits 10 n := fun n hm => absurd (toDigits_digit hm) (by decide)
  cases a with
  | path q => exact app _ _ (by decide) h.2.1
  | domain d => exact app _ _ (by decide) h.2.1
  | maxAge n => exact app _ _ (by decide) (dig n)
  | maxAgeNeg n => exact app _ _ (by decide) (dig n)
  | expires s => exact app _ _ (by decide) h.1
  | sameSite k => cases k <;> decide
  | secure => decide
  | httpOnly => decide

theorem head?_append_ne {x : Str} {y : Str} (h : x ≠ []) : (x ++ y).head? = x.head? := by
  cases x with
  | nil => exact absurd rfl h
  | cons a r => rfl

theorem trimmed_append {x y : Str} (hx : x ≠ []) (hh : ∀ c, x.head? = some c → isWs c = false)
    (hl : ∀ c, x.getLast? = some c → isWs c = false)
    (hy : ∀ c, y.getLast? = some c → isWs c = false) : Trimmed (x ++ y) := by
  constructor
  · intro c hc
    rw [head?_append_ne hx] at hc
    exact hh c hc
  · intro c hc
    rw [List.getLast?_append] at hc
    cases hy' : y.getLast? with
    | none => rw [hy'] at hc; exact hl c (by simpa using hc)
    | some d => rw [hy'] at hc; simp at hc; subst hc; exact hy d hy'

theorem attr_trimmed (env : Env) (host : Str) (a : Attr) (h : a.Wf env host) : Trimmed a.text := by
  have key : ∀ (x y : Str), x ≠ [] → (∀ c, x.head? = some c → isWs c = false) →
      (∀ c, x.getLast? = some c → isWs c = false) →
      (∀ c, y.getLast? = some c → isWs c = false) → Trimmed (x ++ y) :=
    fun x y => trimmed_append
  have lit : ∀ x : Str, ∀ c d : Char, x.head? = some c → x.getLast? = some d → isWs c = false →
      isWs d = false → (∀ c, x.head? = some c → isWs c = false) ∧
        (∀ c, x.getLast? = some c → isWs c = false) := by
    intro x c d h1 h2 h3 h4
    exact ⟨fun e he => by rw [h1] at he; simp at he; exact he ▸ h3,
      fun e he => by rw [h2] at he; simp at he; exact he ▸ h4⟩
  cases a with
  | path q =>
    have := lit "Path=".toList 'P' '=' rfl rfl (by decide) (by decide)
    exact key _ _ (by decide) this.1 this.2 h.2.2.1.2
  | domain d =>
    have := lit "Domain=".toList 'D' '=' rfl rfl (by decide) (by decide)
    exact key _ _ (by decide) this.1 this.2 h.2.2.1.2
  | maxAge n =>
    have := lit "Max-Age=".toList 'M' '=' rfl rfl (by decide) (by decide)
    exact key _ _ (by decide) this.1 this.2 (trimmed_toDigits n).2
  | maxAgeNeg n =>
    have := lit "Max-Age=-".toList 'M' '-' rfl rfl (by decide) (by decide)
    exact key _ _ (by decide) this.1 this.2 (trimmed_toDigits n).2
  | expires s =>
    have := lit "Expires=".toList 'E' '=' rfl rfl (by decide) (by decide)
    exact key _ _ (by decide) this.1 this.2 h.2.2
  | sameSite k =>
    cases k
    · exact lit _ 'S' 'x' rfl rfl (by decide) (by decide)
    · exact lit _ 'S' 't' rfl rfl (by decide) (by decide)
    · exact lit _ 'S' 'e' rfl rfl (by decide) (by decide)
  | secure => exact lit _ 'S' 'e' rfl rfl (by decide) (by decide)
  | httpOnly => exact lit _ 'H' 'y' rfl rfl (by decide) (by decide)

theorem foldl_parseAttr (env : Env) (host : Str) (as : List Attr) (p : Parse)
    (h : ∀ a ∈ as, a.Wf env host) :
    (as.map Attr.text).foldl (parseAttr env host) p = as.foldl applyAttr p := by
  induction as generalizing p with
  | nil => rfl
  | cons a as ih =>
    simp only [List.map_cons, List.foldl_cons]
    rw [parseAttr_text env host p a (h a (by simp))]
    exact ih _ (fun b hb => h b (by simp [hb]))

theorem parse_setCookie (env : Env) (url : Url) (name value : Str) (as : List Attr)
    (hn : NameWf name) (hv : ValueWf value) (ha : ∀ a ∈ as, a.Wf env url.host) :
    parseHeader env url (setCookieText name value as) =
      some (fillPath url (as.foldl applyAttr (parse0 name value))) := by
  obtain ⟨hn1, hn2, hn3, hn4⟩ := hn
  obtain ⟨hv1, hv2⟩ := hv
  have e1 : splitOnce '=' (setCookieText name value as) =
      some (name, value ++ (as.map (fun a => "; ".toList ++ a.text)).flatten) := by
    have : setCookieText name value as =
        name ++ '=' :: (value ++ (as.map (fun a => "; ".toList ++ a.text)).flatten) := by
      simp [setCookieText]
    rw [this]; exact splitOnce_append '=' name _ hn2
  have e2 : (as.map (fun a => "; ".toList ++ a.text)).flatten =
      ((as.map (fun a => ' ' :: a.text)).map (fun x => ';' :: x)).flatten := by
    rw [List.map_map]; rfl
  have e3 : splitOn ';' (value ++ (as.map (fun a => "; ".toList ++ a.text)).flatten) =
      value :: as.map (fun a => ' ' :: a.text) := by
    rw [e2]
    refine splitOn_sepList ';' value _ hv1 ?_
    intro x hx
    obtain ⟨a, ha', rfl⟩ := List.mem_map.mp hx
    simp only [List.mem_cons, not_or]
    exact ⟨by decide, attr_nosemi env url.host a (ha a ha')⟩
  have e4 : (as.map (fun a => ' ' :: a.text)).map trim = as.map Attr.text := by
    rw [List.map_map]
    apply List.map_congr_left
    intro a ha'
    simp only [Function.comp]
    rw [trim_ws_cons (by decide), trim_of_trimmed (attr_trimmed env url.host a (ha a ha'))]
  unfold parseHeader
  rw [e1]
  dsimp only
  rw [trim_of_trimmed hn4, if_neg (by simp [hn1, hn3]), e3]
  simp only [List.map_cons, List.tail_cons]
  rw [e4, trim_of_trimmed hv2]
  rw [foldl_parseAttr env url.host as _ ha]

/-! ## the final state of the loop, field by field -/

theorem findSome_cons_rev {β : Type} (f : Attr → Option β) (a : Attr) (as : List Attr) :
    (a :: as).reverse.findSome? f = (as.reverse.findSome? f).or (f a) := by
  rw [List.reverse_cons, List.findSome?_append]
  simp only [List.findSome?_cons, List.findSome?_nil]
  cases f a <;> rfl

theorem fold_field {β : Type} (g : Parse → Option β) (f : Attr → Option β)
    (hg : ∀ p a, g (applyAttr p a) = (f a).or (g p)) (as : List Attr) (p : Parse) :
    g (as.foldl applyAttr p) = (as.reverse.findSome? f).or (g p) := by
  induction as generalizing p with
  | nil => rfl
  | cons a as ih =>
    rw [List.foldl_cons, ih, findSome_cons_rev, hg]
    cases as.reverse.findSome? f <;> rfl

theorem fold_flag (g : Parse → Bool) (x : Attr)
    (hg : ∀ p a, g (applyAttr p a) = (decide (a = x) || g p)) (as : List Attr) (p : Parse) :
    g (as.foldl applyAttr p) = (decide (x ∈ as) || g p) := by
  induction as generalizing p with
  | nil => simp
  | cons a as ih =>
    rw [List.foldl_cons, ih, hg]
    by_cases h1 : a = x
    · simp [h1]
    · have : ¬ x = a := fun e => h1 e.symm
      simp [h1, this]

theorem fold_const {β : Type} (g : Parse → β) (hg : ∀ p a, g (applyAttr p a) = g p) (as : List Attr)
    (p : Parse) : g (as.foldl applyAttr p) = g p := by
  induction as generalizing p with
  | nil => rfl
  | cons a as ih => rw [List.foldl_cons, ih, hg]

theorem fold_path (as : List Attr) (n v : Str) :
    (as.foldl applyAttr (parse0 n v)).cookie.path = lastPath as := by
  have := fold_field (fun p => p.cookie.path) Attr.asPath
    (by intro p a; cases a <;> rfl) as (parse0 n v)
  rw [this]; simp [parse0, lastPath]

theorem fold_domain (as : List Attr) (n v : Str) :
    (as.foldl applyAttr (parse0 n v)).cookie.domain = lastDomain as := by
  have := fold_field (fun p => p.cookie.domain) Attr.asDomain
    (by intro p a; cases a <;> rfl) as (parse0 n v)
  rw [this]; simp [parse0, lastDomain]

theorem fold_maxAge (as : List Attr) (n v : Str) :
    (as.foldl applyAttr (parse0 n v)).maxAge = lastMaxAge as := by
  have := fold_field (fun p => p.maxAge) Attr.asMaxAge
    (by intro p a; cases a <;> rfl) as (parse0 n v)
  rw [this]; simp [parse0, lastMaxAge]

theorem fold_expires (as : List Attr) (n v : Str) :
    (as.foldl applyAttr (parse0 n v)).expiresStr = lastExpires as := by
  have := fold_field (fun p => p.expiresStr) Attr.asExpires
    (by intro p a; cases a <;> rfl) as (parse0 n v)
  rw [this]; simp [parse0, lastExpires]

theorem fold_sameSite (as : List Attr) (n v : Str) :
    (as.foldl applyAttr (parse0 n v)).cookie.sameSite = lastSameSite as := by
  have := fold_field (fun p => p.cookie.sameSite) Attr.asSameSite
    (by intro p a; cases a <;> rfl) as (parse0 n v)
  rw [this]; simp [parse0, lastSameSite]

theorem fold_secure (as : List Attr) (n v : Str) :
    (as.foldl applyAttr (parse0 n v)).cookie.secure = decide (Attr.secure ∈ as) := by
  have := fold_flag (fun p => p.cookie.secure) .secure
    (by intro p a; cases a <;> simp [applyAttr]) as (parse0 n v)
  rw [this]; simp [parse0]

theorem fold_httpOnly (as : List Attr) (n v : Str) :
    (as.foldl applyAttr (parse0 n v)).cookie.httpOnly = decide (Attr.httpOnly ∈ as) := by
  have := fold_flag (fun p => p.cookie.httpOnly) .httpOnly
    (by intro p a; cases a <;> simp [applyAttr]) as (parse0 n v)
  rw [this]; simp [parse0]

theorem fold_rest (as : List Attr) (n v : Str) :
    (as.foldl applyAttr (parse0 n v)).cookie.name = n ∧
    (as.foldl applyAttr (parse0 n v)).cookie.value = v ∧
    (as.foldl applyAttr (parse0 n v)).domainRejected = false ∧
    (as.foldl applyAttr (parse0 n v)).cookie.createdAt = 0 ∧
    (as.foldl applyAttr (parse0 n v)).cookie.expires = none := by
  refine ⟨?_, ?_, ?_, ?_, ?_⟩
  · exact fold_const (fun p => p.cookie.name) (by intro p a; cases a <;> rfl) as _
  · exact fold_const (fun p => p.cookie.value) (by intro p a; cases a <;> rfl) as _
  · exact fold_const (fun p => p.domainRejected) (by intro p a; cases a <;> rfl) as _
  · exact fold_const (fun p => p.cookie.createdAt) (by intro p a; cases a <;> rfl) as _
  · exact fold_const (fun p => p.cookie.expires) (by intro p a; cases a <;> rfl) as _

theorem defaultPath_spec (url : Url) : DefaultPathOf url.path (defaultPath url) := by
  unfold defaultPath beforeLastSlash DefaultPathOf
  cases h : splitOnce '/' url.path.reverse with
  | none =>
    have := splitOnce_none.mp h
    right
    exact ⟨rfl, Or.inl (by simpa using this)⟩
  | some ab =>
    obtain ⟨a, b⟩ := ab
    obtain ⟨h1, h2⟩ := splitOnce_spec h
    have h3 : url.path = b.reverse ++ '/' :: a.reverse := by
      rw [← List.reverse_reverse url.path, h1]; simp
    dsimp only
    by_cases hb : b.reverse = []
    · rw [if_pos hb]
      right
      refine ⟨rfl, Or.inr ⟨a.reverse, ?_, by simpa using h2⟩⟩
      rw [h3, hb]; rfl
    · rw [if_neg hb]
      left
      exact ⟨a.reverse, h3, by simpa using h2, hb⟩

theorem defaultPath_unique {path d d' : Str} (h : DefaultPathOf path d) (h' : DefaultPathOf path d') :
    d = d' := by
  have key : ∀ (a b f g : Str), a ++ '/' :: f = b ++ '/' :: g → '/' ∉ f → '/' ∉ g → a = b := by
    intro a b f g he hf hg
    have h1 := congrArg List.reverse he
    simp only [List.reverse_append, List.reverse_cons, List.append_assoc, List.singleton_append] at h1
    have e1 := splitOnce_append '/' f.reverse a.reverse (by simpa using hf)
    have e2 := splitOnce_append '/' g.reverse b.reverse (by simpa using hg)
    rw [h1, e2] at e1
    simp at e1
    exact e1.2.symm
  rcases h with ⟨f, h1, h2, h3⟩ | ⟨h1, h2⟩ <;> rcases h' with ⟨f', h1', h2', h3'⟩ | ⟨h1', h2'⟩
  · exact key d d' f f' (h1.symm.trans h1') h2 h2'
  · rcases h2' with h2' | ⟨g, hg, hg'⟩
    · exact absurd (by rw [h1]; simp) h2'
    · exact absurd (key d [] f g (h1.symm.trans hg) h2 hg') h3
  · rcases h2 with h2 | ⟨g, hg, hg'⟩
    · exact absurd (by rw [h1']; simp) h2
    · exact absurd (key d' [] f' g (h1'.symm.trans hg) h2' hg') h3'
  · exact h1.trans h1'.symm

/-! ## Splitting the Cookie header again -/

theorem header_split (cs : List Cookie) (hne : cs ≠ [])
    (hs : ∀ c ∈ cs, ';' ∉ c.name ∧ ';' ∉ c.value ∧ '=' ∉ c.name ∧ c.name ≠ [] ∧
      Trimmed c.name ∧ Trimmed c.value) :
    ((splitOn ';' (headerText cs)).map trim).map (splitOnce '=') =
      cs.map (fun c => some (c.name, c.value)) := by
  have body : ∀ c : Cookie, c.name ++ "=".toList ++ c.value = c.name ++ '=' :: c.value := by
    intro c; simp
  have nosemi : ∀ c ∈ cs, ';' ∉ c.name ++ "=".toList ++ c.value := by
    intro c hc
    have := hs c hc
    simp only [List.mem_append, not_or]
    exact ⟨⟨this.1, by decide⟩, this.2.1⟩
  have tr : ∀ c ∈ cs, trim (c.name ++ "=".toList ++ c.value) = c.name ++ "=".toList ++ c.value := by
    intro c hc
    obtain ⟨h1, h2, h3, h4, h5, h6⟩ := hs c hc
    refine trim_of_trimmed (trimmed_append ?_ ?_ ?_ h6.2)
    · simp
    · intro x hx
      rw [head?_append_ne h4] at hx
      exact h5.1 x hx
    · intro x hx
      have : (c.name ++ "=".toList).getLast? = some '=' := by simp
      rw [this] at hx; simp at hx; subst hx; decide
  have sp : ∀ c ∈ cs, splitOnce '=' (c.name ++ "=".toList ++ c.value) = some (c.name, c.value) := by
    intro c hc
    rw [body]; exact splitOnce_append '=' _ _ (hs c hc).2.2.1
  cases cs with
  | nil => exact absurd rfl hne
  | cons c r =>
    have e : headerText (c :: r) = (c.name ++ "=".toList ++ c.value) ++
        ((r.map (fun d => ' ' :: (d.name ++ "=".toList ++ d.value))).map (fun x => ';' :: x)).flatten := by
      clear nosemi tr sp hs hne
      induction r generalizing c with
      | nil => simp [headerText]
      | cons d r ih =>
        have := ih d
        unfold headerText at this ⊢
        simp only [List.map_cons] at this ⊢
        rw [List.intersperse_cons_cons, List.flatten_cons, List.flatten_cons, this]
        simp
    rw [e, splitOn_sepList ';' _ _ (nosemi c (by simp))]
    · rw [List.map_cons, List.map_cons, List.map_cons, tr c (by simp), sp c (by simp)]
      congr 1
      rw [List.map_map, List.map_map]
      apply List.map_congr_left
      intro d hd
      simp only [Function.comp]
      rw [trim_ws_cons (by decide), tr d (by simp [hd]), sp d (by simp [hd])]
    · intro x hx
      obtain ⟨d, hd, rfl⟩ := List.mem_map.mp hx
      rw [List.mem_cons, not_or]
      exact ⟨by decide, nosemi d (by simp [hd])⟩

end Verif.Cookies
