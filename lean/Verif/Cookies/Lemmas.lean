import Verif.Cookies.Spec
import Mathlib.Tactic.Common
set_option linter.unusedVariables false
namespace Verif.Cookies

/-! ## The map of buckets -/

theorem mem_setBucket {es : List (Origin × List Cookie)} {o k : Origin} {b v : List Cookie}
    (h : (k, v) ∈ setBucket es o b) : (k, v) ∈ es ∨ (k = o ∧ v = b) := by
  induction es with
  | nil => simp [setBucket] at h; exact Or.inr h
  | cons e r ih =>
    obtain ⟨k0, v0⟩ := e
    simp only [setBucket] at h
    split at h
    · rename_i hk
      rcases List.mem_cons.mp h with h | h
      · simp at h; exact Or.inr ⟨h.1.trans hk, h.2⟩
      · exact Or.inl (by simp [h])
    · rcases List.mem_cons.mp h with h | h
      · exact Or.inl (by simp [h])
      · rcases ih h with h | h
        · exact Or.inl (by simp [h])
        · exact Or.inr h

theorem bucketOf_mem {es : List (Origin × List Cookie)} {o : Origin} {c : Cookie}
    (h : c ∈ bucketOf es o) : ∃ b, (o, b) ∈ es ∧ c ∈ b := by
  induction es with
  | nil => simp [bucketOf] at h
  | cons e r ih =>
    obtain ⟨k0, v0⟩ := e
    simp only [bucketOf] at h
    split at h
    · rename_i hk; exact ⟨v0, by simp [hk], h⟩
    · obtain ⟨b, h1, h2⟩ := ih h; exact ⟨b, by simp [h1], h2⟩

theorem bucketOf_eq {es : List (Origin × List Cookie)} {o : Origin} {b : List Cookie}
    (hn : (es.map (·.1)).Nodup) (h : (o, b) ∈ es) : bucketOf es o = b := by
  induction es with
  | nil => simp at h
  | cons e r ih =>
    obtain ⟨k0, v0⟩ := e
    simp only [List.map_cons, List.nodup_cons] at hn
    simp only [bucketOf]
    rcases List.mem_cons.mp h with h | h
    · simp at h; simp [h]
    · have : k0 ≠ o := by
        rintro rfl
        exact hn.1 (List.mem_map.mpr ⟨_, h, rfl⟩)
      rw [if_neg this]; exact ih hn.2 h

theorem keys_setBucket {es : List (Origin × List Cookie)} {o : Origin} {b : List Cookie}
    (hn : (es.map (·.1)).Nodup) : ((setBucket es o b).map (·.1)).Nodup := by
  induction es with
  | nil => simp [setBucket]
  | cons e r ih =>
    obtain ⟨k0, v0⟩ := e
    simp only [List.map_cons, List.nodup_cons] at hn
    simp only [setBucket]
    split
    · simpa using hn
    · rename_i hk
      simp only [List.map_cons, List.nodup_cons]
      refine ⟨?_, ih hn.2⟩
      intro hm
      obtain ⟨⟨k, v⟩, hkv, hke⟩ := List.mem_map.mp hm
      simp at hke
      rcases mem_setBucket hkv with h | h
      · exact hn.1 (List.mem_map.mpr ⟨_, h, hke⟩)
      · exact hk (hke ▸ h.1)

theorem bucketOf_setBucket (es : List (Origin × List Cookie)) (o k : Origin) (b : List Cookie) :
    bucketOf (setBucket es o b) k = if k = o then b else bucketOf es k := by
  induction es with
  | nil =>
    simp only [setBucket, bucketOf]
    by_cases h : k = o
    · simp [h]
    · rw [if_neg h, if_neg (fun e => h e.symm)]
  | cons e r ih =>
    obtain ⟨k0, v0⟩ := e
    simp only [setBucket]
    split
    · rename_i hk
      subst hk
      simp only [bucketOf]
      by_cases h : k = k0
      · subst h; simp
      · simp [h, eq_comm]
    · rename_i hk
      simp only [bucketOf, ih]
      by_cases h : k0 = k
      · subst h; simp [hk]
      · simp [h]

theorem holds_iff {jar : Jar} (hn : (jar.entries.map (·.1)).Nodup) (o : Origin) (c : Cookie) :
    Holds jar o c ↔ c ∈ bucketOf jar.entries o :=
  ⟨fun ⟨b, h1, h2⟩ => (bucketOf_eq hn h1) ▸ h2, fun h => bucketOf_mem h⟩

/-! ## Updating one bucket -/

theorem sameKey_iff (a b : Cookie) : sameKey a b = true ↔ SameId a b := by
  simp [sameKey, SameId]

theorem SameId.symm {a b : Cookie} (h : SameId a b) : SameId b a := ⟨h.1.symm, h.2.1.symm, h.2.2.symm⟩
theorem SameId.trans {a b c : Cookie} (h : SameId a b) (k : SameId b c) : SameId a c :=
  ⟨h.1.trans k.1, h.2.1.trans k.2.1, h.2.2.trans k.2.2⟩
theorem SameId.refl (a : Cookie) : SameId a a := ⟨rfl, rfl, rfl⟩

/-- pairwise distinct identities -/
def Uniq (b : List Cookie) : Prop := b.Pairwise (fun c d => ¬ SameId c d)

/-- the creation time `put` gives the cookie -/
def putTime (ms : Int) (c : Cookie) (b : List Cookie) : Int :=
  match b.find? (fun e => sameKey e c) with
  | some e => e.createdAt
  | none => ms

theorem mem_putCookie {ms : Int} {c d : Cookie} {b : List Cookie} (hu : Uniq b) :
    d ∈ putCookie ms c b ↔ (d ∈ b ∧ ¬ SameId d c) ∨ d = { c with createdAt := putTime ms c b } := by
  induction b with
  | nil => simp [putCookie, putTime]
  | cons e r ih =>
    have hu' := List.pairwise_cons.mp hu
    simp only [putCookie]
    split
    · rename_i hk
      have hke := (sameKey_iff e c).mp hk
      simp only [putTime, List.find?_cons, hk, List.mem_cons]
      constructor
      · rintro (h | h)
        · exact Or.inr h
        · refine Or.inl ⟨Or.inr h, fun hs => hu'.1 d h (hke.trans hs.symm)⟩
      · rintro (⟨h | h, hs⟩ | h)
        · subst h; exact absurd hke hs
        · exact Or.inr h
        · exact Or.inl h
    · rename_i hk
      have hk' : sameKey e c = false := by simpa using hk
      have hke : ¬ SameId e c := fun h => hk ((sameKey_iff e c).mpr h)
      simp only [List.mem_cons, ih hu'.2, putTime, List.find?_cons, hk']
      constructor
      · rintro (h | ⟨h, hs⟩ | h)
        · subst h; exact Or.inl ⟨Or.inl rfl, hke⟩
        · exact Or.inl ⟨Or.inr h, hs⟩
        · exact Or.inr h
      · rintro (⟨h | h, hs⟩ | h)
        · exact Or.inl h
        · exact Or.inr (Or.inl ⟨h, hs⟩)
        · exact Or.inr (Or.inr h)

theorem uniq_putCookie {ms : Int} {c : Cookie} {b : List Cookie} (hu : Uniq b) :
    Uniq (putCookie ms c b) := by
  induction b with
  | nil => simp [putCookie, Uniq]
  | cons e r ih =>
    have hu' := List.pairwise_cons.mp hu
    simp only [putCookie]
    split
    · rename_i hk
      have hke := (sameKey_iff e c).mp hk
      exact List.Pairwise.cons (fun d hd hs => hu'.1 d hd (hke.trans hs)) hu'.2
    · rename_i hk
      have hke : ¬ SameId e c := fun h => hk ((sameKey_iff e c).mpr h)
      refine List.Pairwise.cons (fun d hd hs => ?_) (ih hu'.2)
      rcases (mem_putCookie hu'.2).mp hd with ⟨h, _⟩ | h
      · exact hu'.1 d h hs
      · subst h; exact hke hs

theorem uniq_applyAction {clock : Clock} {b : List Cookie} (a : Action) (hu : Uniq b) :
    Uniq (applyAction clock b a) := by
  cases a with
  | skip => exact hu
  | delete c => exact List.Pairwise.filter _ hu
  | put c => exact uniq_putCookie hu

theorem uniq_storeHeader {env url third policy} {b : List Cookie} (h : Option Str × Clock)
    (hu : Uniq b) : Uniq (storeHeader env url third policy b h) := by
  unfold storeHeader
  split
  · exact hu
  · split
    · exact hu
    · exact uniq_applyAction _ hu

theorem uniq_foldl {env url third policy} {b : List Cookie} (hs : List (Option Str × Clock))
    (hu : Uniq b) : Uniq (hs.foldl (storeHeader env url third policy) b) := by
  induction hs generalizing b with
  | nil => exact hu
  | cons h hs ih => exact ih (uniq_storeHeader h hu)

/-! ## The invariant of reachable jars -/

structure Inv (jar : Jar) : Prop where
  keys : (jar.entries.map (·.1)).Nodup
  uniq : ∀ o b, (o, b) ∈ jar.entries → Uniq b

theorem Inv.bucket {jar : Jar} (h : Inv jar) (o : Origin) : Uniq (bucketOf jar.entries o) := by
  have : ∀ es : List (Origin × List Cookie), (∀ o b, (o, b) ∈ es → Uniq b) → Uniq (bucketOf es o) := by
    intro es
    induction es with
    | nil => intro _; simp [bucketOf, Uniq]
    | cons e r ih =>
      obtain ⟨k, v⟩ := e
      intro hh
      simp only [bucketOf]
      split
      · exact hh k v (by simp)
      · exact ih (fun o b hb => hh o b (by simp [hb]))
  exact this _ h.uniq

theorem inv_step (env : Env) {jar : Jar} (h : Inv jar) (op : Op) : Inv (step env jar op) := by
  cases op with
  | store u hs t =>
    simp only [step, store]
    split
    · exact h
    · refine ⟨keys_setBucket h.keys, ?_⟩
      intro o b hb
      rcases mem_setBucket hb with hb | ⟨_, rfl⟩
      · exact h.uniq o b hb
      · exact uniq_foldl _ (h.bucket _)
  | clear => exact ⟨by simp [step, clear], by simp [step, clear]⟩
  | remove u n =>
    refine ⟨?_, ?_⟩
    · simp only [step, removeCookie, List.map_map]
      have : ((fun e : Origin × List Cookie => e.1) ∘ fun e => if e.1 = u.origin then
          (e.1, e.2.filter (fun c => decide (c.name ≠ n))) else e) = (·.1) := by
        funext e; simp only [Function.comp]; split <;> rfl
      rw [this]; exact h.keys
    · intro o b hb
      simp only [step, removeCookie, List.mem_map] at hb
      obtain ⟨e, he, heq⟩ := hb
      split at heq
      · simp at heq; rw [← heq.2]; exact List.Pairwise.filter _ (h.uniq e.1 e.2 he)
      · subst heq; exact h.uniq _ _ he
  | removeForUrl u =>
    refine ⟨?_, ?_⟩
    · simp only [step, removeForUrl]
      exact h.keys.sublist (List.Sublist.map _ List.filter_sublist)
    · intro o b hb
      simp only [step, removeForUrl, List.mem_filter] at hb
      exact h.uniq o b hb.1
  | purge now =>
    refine ⟨?_, ?_⟩
    · simp only [step, purgeExpired]
      refine List.Nodup.sublist (List.Sublist.map _ List.filter_sublist) ?_
      rw [List.map_map]; exact h.keys
    · intro o b hb
      simp only [step, purgeExpired, List.mem_filter, List.mem_map] at hb
      obtain ⟨⟨e, he, heq⟩, _⟩ := hb
      simp at heq
      rw [← heq.2]; exact List.Pairwise.filter _ (h.uniq e.1 e.2 he)

theorem inv_new (p : Policy) : Inv (new p) := ⟨by simp [new], by simp [new]⟩

theorem inv_run (env : Env) {jar : Jar} (h : Inv jar) (ops : List Op) : Inv (run env jar ops) := by
  induction ops generalizing jar with
  | nil => exact h
  | cons op ops ih => exact ih (inv_step env h op)

theorem inv_reachable {env : Env} {jar : Jar} (h : Reachable env jar) : Inv jar := by
  obtain ⟨p, ops, rfl⟩ := h
  exact inv_run env (inv_new p) ops

/-! ## Where stored cookies come from -/

/-- the cookie was put by one of these headers of a response from `url` -/
def PutBy (env : Env) (url : Url) (third : Bool) (policy : Policy) (hs : List (Option Str × Clock))
    (c : Cookie) : Prop :=
  ∃ h ∈ hs, ∃ s p c0 t, h.1 = some s ∧ parseHeader env url s = some p ∧
    decideAction env url third policy h.2 p = .put c0 ∧ c = { c0 with createdAt := t }

theorem mem_putCookie_weak {ms : Int} {c d : Cookie} {b : List Cookie} (h : d ∈ putCookie ms c b) :
    d ∈ b ∨ ∃ t, d = { c with createdAt := t } := by
  induction b with
  | nil => simp [putCookie] at h; exact Or.inr ⟨_, h⟩
  | cons e r ih =>
    simp only [putCookie] at h
    split at h
    · rcases List.mem_cons.mp h with h | h
      · exact Or.inr ⟨_, h⟩
      · exact Or.inl (by simp [h])
    · rcases List.mem_cons.mp h with h | h
      · exact Or.inl (by simp [h])
      · rcases ih h with h | h
        · exact Or.inl (by simp [h])
        · exact Or.inr h

theorem mem_storeHeader {env url third policy} {b : List Cookie} {h : Option Str × Clock} {c : Cookie}
    (hc : c ∈ storeHeader env url third policy b h) :
    c ∈ b ∨ PutBy env url third policy [h] c := by
  unfold storeHeader at hc
  split at hc
  · exact Or.inl hc
  · rename_i s hs
    split at hc
    · exact Or.inl hc
    · rename_i p hp
      generalize ha : decideAction env url third policy h.2 p = a at hc
      cases a with
      | skip => exact Or.inl hc
      | delete d => exact Or.inl (List.mem_filter.mp hc).1
      | put d =>
        rcases mem_putCookie_weak hc with hc | ⟨t, hc⟩
        · exact Or.inl hc
        · exact Or.inr ⟨h, by simp, s, p, d, t, hs, hp, ha, hc⟩

theorem PutBy.mono {env url third policy} {hs hs' : List (Option Str × Clock)} {c : Cookie}
    (h : PutBy env url third policy hs c) (hsub : ∀ x ∈ hs, x ∈ hs') :
    PutBy env url third policy hs' c := by
  obtain ⟨x, hx, r⟩ := h; exact ⟨x, hsub x hx, r⟩

theorem mem_foldl {env url third policy} {b : List Cookie} {hs : List (Option Str × Clock)} {c : Cookie}
    (hc : c ∈ hs.foldl (storeHeader env url third policy) b) :
    c ∈ b ∨ PutBy env url third policy hs c := by
  induction hs generalizing b with
  | nil => exact Or.inl hc
  | cons h hs ih =>
    rcases ih hc with hc | hc
    · rcases mem_storeHeader hc with hc | hc
      · exact Or.inl hc
      · exact Or.inr (hc.mono (by simp))
    · exact Or.inr (hc.mono (by simp; tauto))

theorem holds_store {env : Env} {jar : Jar} {url hs top} {o : Origin} {c : Cookie}
    (h : Holds (store env jar url hs top) o c) :
    Holds jar o c ∨ (o = url.origin ∧ PutBy env url (isThirdParty env url top) jar.policy hs c ∧
      ¬ (isThirdParty env url top = true ∧ jar.policy = .block)) := by
  unfold store at h
  simp only at h
  split at h
  · exact Or.inl h
  · rename_i hb
    obtain ⟨b, hb1, hb2⟩ := h
    rcases mem_setBucket hb1 with hb1 | ⟨h1, h2⟩
    · exact Or.inl ⟨b, hb1, hb2⟩
    · subst h2
      rcases mem_foldl hb2 with hc | hc
      · obtain ⟨b', hb', hc'⟩ := bucketOf_mem hc
        exact Or.inl ⟨b', h1 ▸ hb', hc'⟩
      · exact Or.inr ⟨h1, hc, hb⟩

theorem holds_clear {jar : Jar} {o c} (h : Holds (clear jar) o c) : False := by
  obtain ⟨b, hb, _⟩ := h; simp [clear] at hb

theorem holds_remove {jar : Jar} {u n o c} (h : Holds (removeCookie jar u n) o c) : Holds jar o c := by
  obtain ⟨b, hb, hc⟩ := h
  simp only [removeCookie, List.mem_map] at hb
  obtain ⟨e, he, heq⟩ := hb
  split at heq
  · simp at heq
    rw [← heq.2] at hc
    exact ⟨e.2, by rw [← heq.1]; exact he, (List.mem_filter.mp hc).1⟩
  · subst heq; exact ⟨_, he, hc⟩

theorem holds_removeForUrl {jar : Jar} {u o c} :
    Holds (removeForUrl jar u) o c ↔ Holds jar o c ∧ o ≠ u.origin := by
  constructor
  · rintro ⟨b, hb, hc⟩
    simp only [removeForUrl, List.mem_filter] at hb
    exact ⟨⟨b, hb.1, hc⟩, by simpa using hb.2⟩
  · rintro ⟨⟨b, hb, hc⟩, ho⟩
    exact ⟨b, by simp only [removeForUrl, List.mem_filter]; exact ⟨hb, by simpa using ho⟩, hc⟩

theorem unexpired_iff (now : Int) (c : Cookie) : unexpired now c = true ↔ Unexpired now c := by
  unfold unexpired Unexpired
  split
  · rename_i h; simp [h]
  · rename_i e h; simp [h]

theorem holds_purge {jar : Jar} {now o c} :
    Holds (purgeExpired jar now) o c ↔ Holds jar o c ∧ Unexpired now c := by
  constructor
  · rintro ⟨b, hb, hc⟩
    simp only [purgeExpired, List.mem_filter, List.mem_map] at hb
    obtain ⟨⟨e, he, heq⟩, _⟩ := hb
    simp at heq
    rw [← heq.2] at hc
    exact ⟨⟨e.2, by rw [← heq.1]; exact he, (List.mem_filter.mp hc).1⟩,
      (unexpired_iff now c).mp (List.mem_filter.mp hc).2⟩
  · rintro ⟨⟨b, hb, hc⟩, hu⟩
    have hm : c ∈ b.filter (unexpired now) := List.mem_filter.mpr ⟨hc, (unexpired_iff now c).mpr hu⟩
    refine ⟨b.filter (unexpired now), ?_, hm⟩
    simp only [purgeExpired, List.mem_filter, List.mem_map]
    refine ⟨⟨(o, b), hb, rfl⟩, ?_⟩
    simp only [decide_eq_true_eq]
    intro hnil; rw [hnil] at hm; simp at hm

/-- A property of (origin, cookie) pairs that every newly put cookie has is an invariant. -/
theorem holds_induct {env : Env} (P : Origin → Cookie → Prop)
    (hput : ∀ url third policy hs c, PutBy env url third policy hs c → P url.origin c)
    {jar : Jar} (hr : Reachable env jar) : ∀ o c, Holds jar o c → P o c := by
  obtain ⟨pol, ops, rfl⟩ := hr
  suffices h : ∀ (ops : List Op) (jar : Jar), (∀ o c, Holds jar o c → P o c) →
      ∀ o c, Holds (run env jar ops) o c → P o c by
    refine h ops (new pol) ?_
    intro o c ⟨b, hb, _⟩
    simp [new] at hb
  intro ops
  induction ops with
  | nil => intro jar h; exact h
  | cons op ops ih =>
    intro jar h
    refine ih (step env jar op) ?_
    intro o c hc
    cases op with
    | store u hs t =>
      rcases holds_store hc with hc | ⟨rfl, hc, _⟩
      · exact h o c hc
      · exact hput _ _ _ _ _ hc
    | clear => exact (holds_clear hc).elim
    | remove u n => exact h o c (holds_remove hc)
    | removeForUrl u => exact h o c (holds_removeForUrl.mp hc).1
    | purge now => exact h o c (holds_purge.mp hc).1

/-! ## What a parsed header looks like -/

theorem foldl_inv {α β : Type} (P : β → Prop) (f : β → α → β) (hf : ∀ b a, P b → P (f b a))
    (l : List α) (b : β) (hb : P b) : P (l.foldl f b) := by
  induction l generalizing b with
  | nil => exact hb
  | cons a l ih => exact ih _ (hf b a hb)

theorem parseAttr_name (env host p part) : (parseAttr env host p part).cookie.name = p.cookie.name := by
  unfold parseAttr
  dsimp only
  repeat' split
  all_goals rfl

theorem parseAttr_value (env host p part) : (parseAttr env host p part).cookie.value = p.cookie.value := by
  unfold parseAttr
  dsimp only
  repeat' split
  all_goals rfl

theorem parseAttr_domain (env host p part d)
    (h : (parseAttr env host p part).cookie.domain = some d)
    (hp : ∀ d, p.cookie.domain = some d → isValidCookieDomain env host d = true) :
    isValidCookieDomain env host d = true := by
  revert h
  unfold parseAttr
  dsimp only
  repeat' split
  all_goals first
    | exact fun h => hp d h
    | skip
  rename_i hv
  intro h
  simp at h
  rw [← h]; exact hv

/-- facts about every parsed header -/
structure Parsed (env : Env) (url : Url) (p : Parse) : Prop where
  name_ne : p.cookie.name ≠ []
  name_semi : ';' ∉ p.cookie.name
  name_eq : '=' ∉ p.cookie.name
  name_trim : ∃ s, p.cookie.name = trim s
  value_semi : ';' ∉ p.cookie.value
  value_trim : ∃ s, p.cookie.value = trim s
  domain : ∀ d, p.cookie.domain = some d → isValidCookieDomain env url.host d = true
  path : p.cookie.path.isSome

theorem parsed_of {env url s p} (h : parseHeader env url s = some p) : Parsed env url p := by
  unfold parseHeader at h
  split at h
  · simp at h
  · rename_i name rest hsplit
    dsimp only at h
    split at h
    · simp at h
    · rename_i hname
      rw [not_or] at hname
      obtain ⟨hs1, hs2⟩ := splitOnce_spec hsplit
      obtain ⟨v, vs, hv⟩ := List.exists_cons_of_ne_nil (splitOn_ne_nil ';' rest)
      rw [hv] at h
      simp only [List.map_cons, List.tail_cons] at h
      have hvs : ';' ∉ v := splitOn_noSep ';' rest v (by rw [hv]; simp)
      generalize hf : List.foldl (parseAttr env url.host) _ _ = q at h
      have hq : q.cookie.name = trim name ∧ q.cookie.value = trim v ∧
          (∀ d, q.cookie.domain = some d → isValidCookieDomain env url.host d = true) := by
        rw [← hf]
        refine foldl_inv (fun q : Parse => q.cookie.name = trim name ∧ q.cookie.value = trim v ∧
          (∀ d, q.cookie.domain = some d → isValidCookieDomain env url.host d = true)) _ ?_ _ _ ?_
        · rintro b a ⟨h1, h2, h3⟩
          exact ⟨(parseAttr_name ..).trans h1, (parseAttr_value ..).trans h2,
            fun d hd => parseAttr_domain env url.host b a d hd h3⟩
        · exact ⟨rfl, rfl, by simp [parse0]⟩
      have key : ∀ q' : Parse, q'.cookie.name = q.cookie.name → q'.cookie.value = q.cookie.value →
          q'.cookie.domain = q.cookie.domain → q'.cookie.path.isSome → Parsed env url q' := by
        intro q' h1 h2 h3 h4
        refine ⟨?_, ?_, ?_, ⟨name, h1.trans hq.1⟩, ?_, ⟨v, h2.trans hq.2.1⟩, ?_, h4⟩
        · rw [h1, hq.1]; exact hname.1
        · rw [h1, hq.1]; exact hname.2
        · rw [h1, hq.1]; exact fun hm => hs2 (mem_of_mem_trim hm)
        · rw [h2, hq.2.1]; exact fun hm => hvs (mem_of_mem_trim hm)
        · rw [h3]; exact hq.2.2
      simp only [Option.some.injEq] at h
      subst h
      unfold fillPath
      split
      · exact key _ rfl rfl rfl rfl
      · rename_i hpath
        exact key _ rfl rfl rfl (Option.isSome_iff_ne_none.mpr hpath)

/-- what `put` implies -/
structure PutFacts (env : Env) (url : Url) (third : Bool) (policy : Policy) (p : Parse) (c : Cookie) :
    Prop where
  name : c.name = p.cookie.name
  value : c.value = p.cookie.value
  domain : c.domain = p.cookie.domain
  path : c.path = p.cookie.path
  secure : c.secure = p.cookie.secure
  sameSite : c.sameSite = p.cookie.sameSite
  https : c.secure = true → url.scheme = "https".toList
  secPrefix : "__Secure-".toList <+: c.name → c.secure = true
  hostPrefix : "__Host-".toList <+: c.name → c.secure = true ∧ c.domain = none ∧ c.path = some ['/']
  noneOnly : third = true → policy = .sameSiteNoneOnly → c.sameSite = some "None".toList ∧ c.secure = true

theorem putFacts_of {env url third policy clock p c}
    (h : decideAction env url third policy clock p = .put c) : PutFacts env url third policy p c := by
  unfold decideAction at h
  dsimp only at h
  split at h
  · simp at h
  split at h
  · simp at h
  rename_i hsec
  split at h
  · simp at h
  rename_i hsp
  split at h
  · simp at h
  rename_i hhp
  have base : ∀ e, ¬(third = true ∧ policy = .sameSiteNoneOnly ∧
      ¬ (p.cookie.sameSite = some "None".toList ∧ p.cookie.secure = true)) →
      PutFacts env url third policy p { p.cookie with expires := e } := by
    intro e hn
    refine ⟨rfl, rfl, rfl, rfl, rfl, rfl, ?_, ?_, ?_, ?_⟩
    · intro hs
      by_contra hne
      exact hsec ⟨hs, hne⟩
    · intro hpre
      by_contra hne
      exact hsp ⟨hpre, by simpa using hne⟩
    · intro hpre
      have : ¬ (p.cookie.secure = false ∨ p.cookie.domain.isSome ∨ p.cookie.path ≠ some ['/']) :=
        fun hh => hhp ⟨hpre, hh⟩
      simp only [not_or, not_not] at this
      refine ⟨by simpa using this.1, ?_, this.2.2⟩
      have h2 := this.2.1
      cases hd : p.cookie.domain
      · rfl
      · rw [hd] at h2; simp at h2
    · intro ht hp
      by_contra hne
      exact hn ⟨ht, hp, hne⟩
  split at h
  · split at h
    · simp at h
    · split at h
      · simp at h
      · rename_i hn
        simp at h; rw [← h]; exact base _ hn
  · split at h
    · simp at h
    · rename_i hn
      simp at h; rw [← h]; exact base _ hn

/-- what every put cookie satisfies, whatever its creation time -/
structure CookieFacts (env : Env) (url : Url) (third : Bool) (policy : Policy) (c : Cookie) : Prop where
  name_ne : c.name ≠ []
  name_semi : ';' ∉ c.name
  name_eq : '=' ∉ c.name
  name_trim : ∃ s, c.name = trim s
  value_semi : ';' ∉ c.value
  value_trim : ∃ s, c.value = trim s
  domain : ∀ d, c.domain = some d → isValidCookieDomain env url.host d = true
  path : c.path.isSome
  https : c.secure = true → url.scheme = "https".toList
  secPrefix : "__Secure-".toList <+: c.name → c.secure = true
  hostPrefix : "__Host-".toList <+: c.name → c.secure = true ∧ c.domain = none ∧ c.path = some ['/']
  noneOnly : third = true → policy = .sameSiteNoneOnly → c.sameSite = some "None".toList ∧ c.secure = true

theorem PutBy.facts {env url third policy hs c} (h : PutBy env url third policy hs c) :
    CookieFacts env url third policy c := by
  obtain ⟨x, _, s, p, c0, t, _, hp, ha, rfl⟩ := h
  have hp := parsed_of hp
  have hf := putFacts_of ha
  exact ⟨hf.name ▸ hp.name_ne, hf.name ▸ hp.name_semi, hf.name ▸ hp.name_eq, hf.name ▸ hp.name_trim,
    hf.value ▸ hp.value_semi, hf.value ▸ hp.value_trim, hf.domain ▸ hp.domain, hf.path ▸ hp.path,
    hf.https, hf.secPrefix, hf.hostPrefix, hf.noneOnly⟩

/-! ## Domains, paths, sites -/

theorem suffix_iff (host d : Str) : ('.' :: d) <:+ host ↔ ∃ pre, host = pre ++ '.' :: d :=
  ⟨fun ⟨t, h⟩ => ⟨t, h.symm⟩, fun ⟨t, h⟩ => ⟨t, h.symm⟩⟩

theorem validDomain_iff (env : Env) (host d : Str) :
    isValidCookieDomain env host d = true ↔ AtOrBelow host d ∧ ¬ PublicSuffix env d := by
  unfold isValidCookieDomain AtOrBelow PublicSuffix
  dsimp only
  rw [← suffix_iff]
  split
  · rename_i h
    constructor
    · simp
    · rintro ⟨h1 | h1, _⟩
      · exact absurd h1 h.1
      · exact absurd h1 h.2
  · rename_i h
    have h' : lower host = lower d ∨ ('.' :: lower d) <:+ lower host := by
      by_cases h1 : lower host = lower d
      · exact Or.inl h1
      · by_contra h2
        simp only [not_or] at h2
        exact h ⟨h1, h2.2⟩
    split
    · rename_i hp; simp only [Bool.false_eq_true, false_iff]; exact fun hh => hh.2 hp
    · rename_i hp; simp only [true_iff]; exact ⟨h', hp⟩

theorem sameSiteHosts_iff (env : Env) (a b : Str) : sameSiteHosts env a b = true ↔ SameSite env a b := by
  unfold sameSiteHosts SameSite
  generalize env.psl.domain a = x
  generalize env.psl.domain b = y
  cases x <;> cases y <;> simp [eq_comm]

theorem isThirdParty_iff (env : Env) (url : Url) (top : Option Url) :
    isThirdParty env url top = true ↔ ThirdParty env url top := by
  unfold isThirdParty ThirdParty
  cases top with
  | none => simp
  | some tl =>
    simp only [Bool.not_eq_true', Option.some.injEq, exists_eq_left', ← sameSiteHosts_iff,
      Bool.not_eq_true]

theorem pathMatches_iff (reqPath : Str) (p : Option Str) :
    pathMatches reqPath p = true ↔ ∀ cp, p = some cp → PathMatch reqPath cp := by
  cases p with
  | none => simp [pathMatches]
  | some cp =>
    simp only [pathMatches, Option.some.injEq, forall_eq', PathMatch, Bool.or_eq_true,
      decide_eq_true_eq, Bool.and_eq_true, List.isPrefixOf_iff_prefix, List.isSuffixOf_iff_suffix]
    constructor
    · rintro (h | ⟨⟨rest, hr⟩, h⟩)
      · exact Or.inl h
      · right
        refine ⟨rest, hr.symm, ?_⟩
        rcases h with ⟨q, hq⟩ | ⟨q, hq⟩
        · exact Or.inl ⟨q, hq.symm⟩
        · right
          rw [← hr, List.drop_left] at hq
          exact ⟨q, hq.symm⟩
    · rintro (h | ⟨rest, hr, h⟩)
      · exact Or.inl h
      · right
        refine ⟨⟨rest, hr.symm⟩, ?_⟩
        rcases h with ⟨q, hq⟩ | ⟨q, hq⟩
        · exact Or.inl ⟨q, hq.symm⟩
        · right
          rw [hr, List.drop_left]
          exact ⟨q, hq.symm⟩

theorem domainMatches_iff (url : Url) (o : Origin) (d : Option Str) :
    domainMatches url o d = true ↔
      (∀ x, d = some x → AtOrBelow url.host x) ∧ (d = none → o = url.origin) := by
  cases d with
  | none => simp [domainMatches]
  | some d =>
    simp [domainMatches, AtOrBelow, ← suffix_iff, List.isSuffixOf_iff_suffix]

theorem sameSiteOk_iff (ctx : Ctx) (c : Cookie) : sameSiteOk ctx c = true ↔ SameSiteAllows ctx c := by
  unfold sameSiteOk SameSiteAllows IsLax IsStrict IsNone
  split
  · rename_i h
    simp [h]
  · rename_i h
    split
    · rename_i h2; simp [h2]
    · rename_i h2
      simp only [eq_false h, eq_false h2]
      cases ctx <;> simp

theorem eligible_iff (env : Env) (jar : Jar) (url : Url) (top : Option Url) (ctx : Ctx) (now : Int)
    (o : Origin) (c : Cookie)
    (hb : ¬ (isThirdParty env url top = true ∧ jar.policy = .block)) :
    eligible jar url (isThirdParty env url top) ctx now (o, c) = true ↔
      ShouldSend env jar.policy url top ctx now o c := by
  unfold eligible ShouldSend
  simp only [Bool.and_eq_true, sameSiteOk_iff, domainMatches_iff, pathMatches_iff]
  have h1 : expiryOk now c = true ↔ Unexpired now c := by
    unfold expiryOk Unexpired
    split
    · rename_i h; simp [h]
    · rename_i e h; simp [h]
  have h2 : thirdPartyOk (isThirdParty env url top) jar.policy c = true ↔
      PolicyAllows env jar.policy url top c := by
    unfold thirdPartyOk PolicyAllows IsNone
    rw [← isThirdParty_iff]
    by_cases ht : isThirdParty env url top = true
    · by_cases hp : jar.policy = .sameSiteNoneOnly
      · simp [ht, hp]
      · have : jar.policy ≠ .block := fun h => hb ⟨ht, h⟩
        simp [ht, hp, this]
    · simp [ht]
  have h3 : (!c.secure || decide (url.scheme = "https".toList)) = true ↔
      (c.secure = true → url.scheme = "https".toList) := by
    cases c.secure <;> simp
  rw [h1, h2, h3]
  tauto

theorem mem_allCookies (jar : Jar) (o : Origin) (c : Cookie) :
    (o, c) ∈ allCookies jar ↔ Holds jar o c := by
  unfold allCookies Holds
  rw [List.mem_flatMap]
  constructor
  · rintro ⟨⟨k, b⟩, hk, hm⟩
    obtain ⟨c', hc', heq⟩ := List.mem_map.mp hm
    simp at heq
    exact ⟨b, heq.1 ▸ hk, heq.2 ▸ hc'⟩
  · rintro ⟨b, hb, hc⟩
    exact ⟨(o, b), hb, List.mem_map.mpr ⟨c, hc, rfl⟩⟩

theorem nodup_allCookies {jar : Jar} (h : Inv jar) : (allCookies jar).Nodup := by
  obtain ⟨hk, hu⟩ := h
  unfold allCookies
  generalize jar.entries = es at hk hu
  induction es with
  | nil => simp
  | cons e r ih =>
    obtain ⟨k, b⟩ := e
    simp only [List.map_cons, List.nodup_cons] at hk
    simp only [List.flatMap_cons]
    refine List.nodup_append.mpr ⟨?_, ih hk.2 (fun o b hb => hu o b (by simp [hb])), ?_⟩
    · have hb : Uniq b := hu k b (by simp)
      unfold List.Nodup
      rw [List.pairwise_map]
      refine List.Pairwise.imp ?_ hb
      intro x y hxy heq
      simp at heq
      exact hxy (heq ▸ SameId.refl x)
    · intro x hx y hy hxy
      subst hxy
      obtain ⟨c, _, rfl⟩ := List.mem_map.mp hx
      obtain ⟨⟨k', b'⟩, hm, hm'⟩ := List.mem_flatMap.mp hy
      obtain ⟨c', _, heq⟩ := List.mem_map.mp hm'
      simp at heq
      exact hk.1 (List.mem_map.mpr ⟨_, hm, heq.1⟩)

theorem sendLe_iff (a b : Cookie) : sendLe a b = true ↔ Before a b := by
  have h : ∀ c : Cookie, (c.path.map byteLen).getD 0 = pathLen c := by
    intro c; unfold pathLen byteLen; cases c.path <;> rfl
  simp [sendLe, Before, h]

theorem before_trans (a b c : Cookie) (h : Before a b) (k : Before b c) : Before a c := by
  unfold Before at *; omega

theorem before_total (a b : Cookie) : Before a b ∨ Before b a := by
  unfold Before; omega

theorem join_eq (l : List Str) : join "; ".toList l = (List.intersperse "; ".toList l).flatten := by
  induction l with
  | nil => rfl
  | cons x r ih =>
    cases r with
    | nil => simp [join]
    | cons y r =>
      rw [List.intersperse_cons_cons]
      simp only [join, List.flatten_cons, ih, List.append_assoc]

theorem headerText_nil_iff (cs : List Cookie) : headerText cs = [] ↔ cs = [] := by
  cases cs with
  | nil => simp [headerText]
  | cons c r =>
    unfold headerText
    cases r with
    | nil => simp
    | cons d r => simp [List.intersperse_cons_cons]

theorem getRequestCookies_eq (env jar url top ctx now) :
    getRequestCookies env jar url top ctx now =
      if selectCookies env jar url top ctx now = [] then none
      else some (headerText (selectCookies env jar url top ctx now)) := by
  unfold getRequestCookies
  have h : join "; ".toList ((selectCookies env jar url top ctx now).map
      (fun c => c.name ++ '=' :: c.value)) = headerText (selectCookies env jar url top ctx now) := by
    rw [join_eq]; unfold headerText
    congr 2
    apply List.map_congr_left
    intro c _
    simp
  dsimp only
  rw [h]
  by_cases hc : selectCookies env jar url top ctx now = []
  · simp [hc, headerText]
  · rw [if_neg hc, if_neg (fun h => hc ((headerText_nil_iff _).mp h))]

end Verif.Cookies
