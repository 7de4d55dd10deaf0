import Verif.TreeBuild.Trip4

/-!
# C106: opening and closing elements in flow content (2)
-/
namespace Verif.TreeBuild
open Verif Verif.Dom

/-! ## Active formatting elements -/

theorem trim_third {d : Doc} {n i : Nat} : ∀ {l : List (Option Nat)} {k : Nat}, (l.filterMap id).Nodup → thirdLike d n k l = some i →
    Trim l (l.filter fun e => decide (e ≠ some i))
  | [], k, _, h => by cases h
  | none :: r, k, _, h => by cases h
  | some j :: r, k, hn, h => by
    have hn' : j ∉ r.filterMap id ∧ (r.filterMap id).Nodup := by simpa using hn
    refine ⟨List.filter_sublist, ?_⟩
    by_cases hij : j = i
    · subst hij
      have hr : r.filter (fun e => decide (e ≠ some j)) = r := by
        rw [List.filter_eq_self]
        intro a ha
        refine decide_eq_true fun he => hn'.1 ?_
        subst he
        exact List.mem_filterMap.2 ⟨_, ha, rfl⟩
      rw [List.filter_cons_of_neg (by simp), hr]
      rfl
    · rw [List.filter_cons_of_pos (by simp [hij])]
      show afterMarker (r.filter _) = afterMarker r
      unfold thirdLike at h
      split at h
      · split at h
        · exact absurd (Option.some.inj h) hij
        · exact (trim_third hn'.2 h).marker
      · exact (trim_third hn'.2 h).marker

theorem pushActive_some (s : St) (e : Nat) (hn : (s.active.filterMap id).Nodup) :
    ∃ rest, pushActive e s = some ((), { s with active := some e :: rest }) ∧ Trim s.active rest := by
  unfold pushActive upd
  cases h : thirdLike s.doc e 0 s.active with
  | none => exact ⟨s.active, by simp only [h], Trim.refl _⟩
  | some i => exact ⟨_, by simp only [h], trim_third hn h⟩

theorem trim_cons {e : Nat} {r a : List (Option Nat)} (h : Trim (some e :: r) a) (he : some e ∉ r) :
    (some e ∉ a ∧ Trim r a) ∨ ∃ a', a = some e :: a' ∧ Trim r a' := by
  obtain ⟨h1, h2⟩ := h
  rcases List.sublist_cons_iff.1 h1 with h3 | ⟨a', h3, h4⟩
  · exact Or.inl ⟨fun hm => he (h3.subset hm), h3, h2⟩
  · refine Or.inr ⟨a', h3, h4, ?_⟩
    rw [h3] at h2; exact h2

theorem activeIndex_none {s : St} {e : Nat} (h : some e ∉ s.active) : (activeIndex (activeVec s) e).isNone = true := by
  unfold activeIndex activeVec
  rw [List.findIdx?_eq_none_iff.2]
  · rfl
  · intro x hx
    refine decide_eq_false fun he => h ?_
    rw [← he]; exact List.mem_reverse.1 hx

theorem activeIndex_some {s : St} {e : Nat} (h : some e ∈ s.active) : (activeIndex (activeVec s) e).isNone = false := by
  unfold activeIndex activeVec
  cases hf : s.active.reverse.findIdx? (fun x => decide (x = some e)) with
  | some k => rfl
  | none =>
    rw [List.findIdx?_eq_none_iff] at hf
    have := hf _ (List.mem_reverse.2 h)
    simp at this

theorem formats_plain {m : Str} (h : m ∈ "a".toList :: formats) : oneOf m specialHtml = false := by
  have key : ∀ m ∈ "a".toList :: formats, oneOf m specialHtml = false := by decide +kernel
  exact key m h

theorem isSpecial_html {d : Doc} {i : Nat} (h : isHtml d i = true) : isSpecial d i = oneOf (tag d i) specialHtml := by
  unfold isHtml at h
  unfold isSpecial
  rw [of_decide_eq_true h]
  simp

theorem adoption_gone {s : St} {e : Nat} {rest : List Nat} {n : Str} (h : Top s e rest n) (ha : some e ∉ s.active) :
    adoption n s = some ((), closing s rest) := by
  have hc : current s = e := by unfold current; rw [h.opened]; rfl
  unfold adoption
  rw [if_pos]
  · exact h.pop
  · simp only [curTag, hc, h.name, h.html, activeIndex_none ha, decide_true, Bool.and_self]

theorem adoption_here {s : St} {e : Nat} {rest : List Nat} {n : Str} {act : List (Option Nat)} (h : Top s e rest n)
    (hn : n ∈ "a".toList :: formats) (ha : s.active = some e :: act) :
    adoption n s = some ((), { s with opened := rest, active := act }) := by
  have hc : current s = e := by unfold current; rw [h.opened]; rfl
  have h1 : (activeIndex (activeVec s) (current s)).isNone = false := by rw [hc]; exact activeIndex_some (by rw [ha]; simp)
  have h2 : findFormat s n = some (act.length, e) := by
    unfold findFormat
    rw [ha]
    unfold formatEntry
    rw [if_pos h.name]
    simp
  have h3 : openVec s = rest.reverse ++ [e] := by unfold openVec; rw [h.opened]; simp
  have h4 : activeVec s = act.reverse ++ [some e] := by unfold activeVec; rw [ha]; simp
  have h5 : lastIndex (openVec s) e = some rest.length := by
    unfold lastIndex
    rw [h3]
    simp [List.findIdx?_cons]
  have h6 : inScope (tag s.doc e) .regular s = true := by rw [h.name]; exact h.inScope _
  have h7 : isSpecial s.doc e = false := by rw [isSpecial_html h.html, h.name]; exact formats_plain hn
  have h8 : furthestBlock s rest.length = none := by
    unfold furthestBlock
    rw [h3, List.drop_append_of_le_length (by simp), List.drop_of_length_le (by simp)]
    simp [List.findIdx?_cons, h7]
  unfold adoption
  rw [h1, Bool.and_false, if_neg (by simp)]
  unfold outerLoop
  simp only [h2, h5, h6, Bool.not_true, Bool.false_eq_true, if_false, h8]
  show some ((), ({ s with opened := ((openVec s).take rest.length).reverse, active := ((activeVec s).eraseIdx act.length).reverse } : St)) = _
  rw [h3, h4, List.take_left' (by simp), List.eraseIdx_append_of_length_le (by simp)]
  simp

/-! ## Start tags -/

/-- an element has been opened: what is the same for all kinds -/
structure Opens (s s1 : St) (n : Str) (as : Attrs) : Prop where
  added : Added s.doc s1.doc (current s) (elementData n htmlNs as)
  opened : s1.opened = s.doc.nextId :: s.opened
  steady : Steady s s1
  mode : s1.mode = s.mode
  calm : s1.switch = s.switch

/-- what becomes of the form pointer and the active formatting elements -/
structure Marks (s s1 : St) (n : Str) : Prop where
  form : n ≠ "form".toList → s1.form = s.form
  isForm : n = "form".toList → s1.form = some s.doc.nextId
  format : n ∈ "a".toList :: formats → ∃ rest, s1.active = some s.doc.nextId :: rest ∧ Trim s.active rest
  object : n ∈ objects → s1.active = none :: s.active
  other : n ∉ "a".toList :: formats → n ∉ objects → s1.active = s.active

theorem Inside.actNodup {s : St} {above : List Str} (h : Inside s above) : (s.active.filterMap id).Nodup := h.act.nodup h.nodup

theorem opens_insert {s : St} {d1 : Doc} {n : Str} {as : Attrs} (hA : Added s.doc d1 (current s) (elementData n htmlNs as)) (fs : Bool) :
    Opens s { opening s d1 with framesetOk := fs } n as :=
  ⟨hA, rfl, ⟨rfl, rfl, rfl, rfl, rfl, rfl, rfl⟩, rfl, rfl⟩

theorem marks_other {s : St} {d1 : Doc} {n : Str} (fs : Bool) (h1 : n ∉ "a".toList :: formats) (h2 : n ∉ objects)
    (h3 : n ≠ "form".toList) : Marks s { opening s d1 with framesetOk := fs } n :=
  ⟨fun _ => rfl, fun h => absurd h h3, fun h => absurd h h1, fun h => absurd h h2, fun _ _ => rfl⟩

theorem closeItems_stop {l : List String} {s : St} {x : Nat} {r : List Nat} (h1 : oneOf (tag s.doc x) l = false)
    (h2 : oneOf (tag s.doc x) ["address", "div", "p"] = false) (h3 : isSpecial s.doc x = true) :
    closeItems l (x :: r) s = some ((), s) := by
  unfold closeItems
  simp only [h1, h2, h3, Bool.false_eq_true, if_false, Bool.not_false, Bool.and_self, if_true]

theorem startItem_some {s : St} {above : List Str} (h : Inside s above) {l : List String} {n : Str} (as : Attrs)
    (hp : "p".toList ∉ above) (h1 : oneOf (curTag s) l = false) (h2 : oneOf (curTag s) ["address", "div", "p"] = false)
    (h3 : isSpecial s.doc (current s) = true) : ∃ d1, startItem l n as s = some (.done, { opening s d1 with framesetOk := false }) ∧
      Added s.doc d1 (current s) (elementData n htmlNs as) := by
  have h0 : Inside { s with framesetOk := false } above :=
    h.grow ⟨rfl, rfl, rfl, rfl, rfl, rfl, rfl⟩ rfl rfl (List.Sublist.refl _) (Grow.refl h.arena 0)
  obtain ⟨d1, e1, hA⟩ := insert_new h0 n as
  refine ⟨d1, ?_, hA⟩
  unfold startItem
  rw [bind_some (a := ()) (s' := { s with framesetOk := false }) rfl]
  have he : ({ s with framesetOk := false } : St).opened.isEmpty = false := by
    show s.opened.isEmpty = false
    cases ho : s.opened with
    | nil => exact absurd ho h.stack
    | cons x r => rfl
  rw [if_not he]
  apply fin_some
  have hc : closeItems l s.opened { s with framesetOk := false } = some ((), { s with framesetOk := false }) := by
    obtain ⟨x, r, ho⟩ := List.exists_cons_of_ne_nil h.stack
    have hx : current s = x := by unfold current; rw [ho]; rfl
    unfold curTag at h1 h2
    rw [hx] at h1 h2 h3
    have := closeItems_stop (s := { s with framesetOk := false }) (r := r) h1 h2 h3
    rw [← ho] at this
    exact this
  rw [bind_some (m := fun s => closeItems l s.opened s) hc, bind_some (h0.noP hp)]
  exact e1

theorem formattingNamed_none {s : St} {above : List Str} (h : Inside s above) {t : String} (ht : t.toList ∉ above) :
    formattingNamed s.doc t s.active = none := by
  have : ∀ l : List (Option Nat), (∀ i, some i ∈ l → i ∈ s.opened) → formattingNamed s.doc t l = none := by
    intro l
    induction l with
    | nil => intro _; rfl
    | cons x r ih =>
      intro hl
      cases x with
      | none => rfl
      | some i =>
        show (if is (tag s.doc i) t then _ else _) = _
        rw [is_not (h.absent ht (hl i (by simp))), if_neg (by simp)]
        exact ih fun j hj => hl j (by simp [hj])
  refine this _ fun i hi => h.act.subset ?_
  exact List.mem_filterMap.2 ⟨_, hi, rfl⟩

theorem open_flow (env : Env) {s : St} {above : List Str} (h : Inside s above) {n : Str} (hv : n ∉ voids) (ht : n ∉ texts)
    (hm : MayBe above n) (as : Attrs) : ∃ s1, inBodyStart env n false as s = some (.done, s1) ∧ Opens s s1 n as ∧ Marks s s1 n := by
  have ins := insert_new h n as
  rcases kind2 hm.flow hv ht with hk | hk | hk | hk | hk | hk | hk | hk | hk | hk | hk
  · have hp : n ∈ closesP := (by decide +kernel : ∀ m ∈ blocks, m ∈ closesP) n hk
    obtain ⟨d1, e1, hA⟩ := ins
    refine ⟨_, ?_, opens_insert hA s.framesetOk, marks_other s.framesetOk
      ((by decide +kernel : ∀ m ∈ blocks, m ∉ "a".toList :: formats) n hk) ((by decide +kernel : ∀ m ∈ blocks, m ∉ objects) n hk)
      ((by decide +kernel : ∀ m ∈ blocks, m ≠ "form".toList) n hk)⟩
    rw [start_block env false as (by simp [hk])]
    apply fin_some
    rw [bind_some (h.noP (hm.para hp))]
    exact e1
  · subst hk
    obtain ⟨d1, e1, hA⟩ := ins
    refine ⟨_, ?_, opens_insert hA s.framesetOk, marks_other s.framesetOk (by decide +kernel) (by decide +kernel) (by decide +kernel)⟩
    rw [start_block env false as (by simp)]
    apply fin_some
    rw [bind_some (h.noP (hm.para (by decide +kernel)))]
    exact e1
  · have hp : n ∈ closesP := (by decide +kernel : ∀ m ∈ heads, m ∈ closesP) n hk
    obtain ⟨d1, e1, hA⟩ := ins
    refine ⟨_, ?_, opens_insert hA s.framesetOk, marks_other s.framesetOk
      ((by decide +kernel : ∀ m ∈ heads, m ∉ "a".toList :: formats) n hk) ((by decide +kernel : ∀ m ∈ heads, m ∉ objects) n hk)
      ((by decide +kernel : ∀ m ∈ heads, m ≠ "form".toList) n hk)⟩
    rw [start_heading env false as hk]
    apply fin_some
    rw [bind_some (h.noP (hm.para hp))]
    have hc : oneOf (curTag s) headings = false := by
      have := hm.heading hk (curTag s) (by rw [h.curTag]; rfl)
      exact oneOf_avoid this (by decide +kernel)
    rw [bind_some (when_not hc)]
    exact e1
  · subst hk
    have hf := h.form (hm.once (by decide +kernel))
    obtain ⟨d1, e1, hA⟩ := insertHtml_new h "form".toList as
    have hS : Steady s { opening s d1 with form := some s.doc.nextId } := ⟨rfl, rfl, rfl, rfl, rfl, rfl, rfl⟩
    have hR : Inside (opening s d1) ("form".toList :: above) := h.push (s' := opening s d1) ⟨rfl, rfl, rfl, rfl, rfl, rfl, rfl⟩ hA rfl
      (h.act.trans (List.sublist_cons_self _ _)) (fun _ => rfl) (by decide +kernel)
    refine ⟨{ opening s d1 with form := some s.doc.nextId }, ?_, ⟨hA, rfl, hS, rfl, rfl⟩, fun h => absurd rfl h, fun _ => rfl, fun h => absurd h (by decide +kernel),
      fun h => absurd h (by decide +kernel), fun _ _ => rfl⟩
    rw [start_form]
    unfold startForm
    rw [if_not (by rw [hf]; rfl)]
    apply fin_some
    rw [bind_some (h.noP (hm.para (by decide +kernel))), bind_some e1]
    have hT : hasOpen "template" (opening s d1) = false := by
      unfold hasOpen
      rw [List.any_eq_false]
      intro x hx
      rw [is_not (hR.absent (by
        rw [List.mem_cons, not_or]
        exact ⟨by decide +kernel, h.plain⟩) hx)]
      simp
    rw [when_yes (by rw [hT]; rfl)]
    rfl
  · subst hk
    obtain ⟨q, hq, hq'⟩ := hm.item rfl
    rw [h.curTag, Option.mem_some_iff] at hq
    subst hq
    have hs : isSpecial s.doc (current s) = true := by
      rw [isSpecial_html (h.here _ h.cur).2]
      exact (by decide +kernel : ∀ m ∈ names ["ul", "ol", "menu"], oneOf m specialHtml = true) _ hq'
    obtain ⟨d1, e1, hA⟩ := startItem_some h (n := "li".toList) (l := ["li"]) as (hm.para (by decide +kernel))
      ((by decide +kernel : ∀ m ∈ names ["ul", "ol", "menu"], oneOf m ["li"] = false) _ hq')
      ((by decide +kernel : ∀ m ∈ names ["ul", "ol", "menu"], oneOf m ["address", "div", "p"] = false) _ hq') hs
    exact ⟨_, by rw [start_li]; exact e1, opens_insert hA false, marks_other false (by decide +kernel) (by decide +kernel) (by decide +kernel)⟩
  · have hq := hm.term hk
    rw [h.curTag, Option.some.injEq] at hq
    have hs : isSpecial s.doc (current s) = true := by
      rw [isSpecial_html (h.here _ h.cur).2]
      show oneOf (curTag s) specialHtml = true
      rw [hq]; decide +kernel
    obtain ⟨d1, e1, hA⟩ := startItem_some h (n := n) (l := ["dd", "dt"]) as
      (hm.para ((by decide +kernel : ∀ m ∈ names ["dd", "dt"], m ∈ closesP) n hk))
      (by rw [hq]; decide +kernel) (by rw [hq]; decide +kernel) hs
    exact ⟨_, by rw [start_term env false as hk]; exact e1, opens_insert hA false, marks_other false
      ((by decide +kernel : ∀ m ∈ names ["dd", "dt"], m ∉ "a".toList :: formats) n hk)
      ((by decide +kernel : ∀ m ∈ names ["dd", "dt"], m ∉ objects) n hk)
      ((by decide +kernel : ∀ m ∈ names ["dd", "dt"], m ≠ "form".toList) n hk)⟩
  · subst hk
    obtain ⟨d1, e1, hA⟩ := ins
    refine ⟨_, ?_, opens_insert hA false, marks_other false (by decide +kernel) (by decide +kernel) (by decide +kernel)⟩
    rw [start_button]
    apply fin_some
    rw [bind_some (when_not (show inScopeOf s.doc "button".toList .regular s.opened = false from
      inScopeOf_absent fun _ hx => h.absent (hm.once (by decide +kernel)) hx)), bind_some h.rebuilt, bind_some e1]
    rfl
  · subst hk
    obtain ⟨d1, e1, hA⟩ := insertHtml_new h "a".toList as
    obtain ⟨rest, e2, ht⟩ := pushActive_some (opening s d1) s.doc.nextId h.actNodup
    refine ⟨{ opening s d1 with active := some s.doc.nextId :: rest }, ?_, ⟨hA, rfl, ⟨rfl, rfl, rfl, rfl, rfl, rfl, rfl⟩, rfl, rfl⟩, fun _ => rfl,
      fun h => absurd h (by decide +kernel), fun _ => ⟨rest, rfl, ht⟩,
      fun h => absurd h (by decide +kernel), fun h => absurd (by decide +kernel) h⟩
    rw [start_a]
    apply fin_some
    have : (fun s => match formattingNamed s.doc "a" s.active with
        | some i => ((do
          adoption "a".toList
          removeOpen i
          removeActive i) : M Unit) s
        | none => some ((), s) : M Unit) s = some ((), s) := by
      simp only [formattingNamed_none h (hm.once (by decide +kernel))]
    refine (bind_some (m := (_ : M Unit)) this).trans ?_
    rw [bind_some h.rebuilt, bind_some e1]
    exact e2
  · obtain ⟨d1, e1, hA⟩ := insertHtml_new h n as
    obtain ⟨rest, e2, ht⟩ := pushActive_some (opening s d1) s.doc.nextId h.actNodup
    refine ⟨{ opening s d1 with active := some s.doc.nextId :: rest }, ?_, ⟨hA, rfl, ⟨rfl, rfl, rfl, rfl, rfl, rfl, rfl⟩, rfl, rfl⟩, fun _ => rfl,
      fun h => absurd h ((by decide +kernel : ∀ m ∈ formats, m ≠ "form".toList) n hk), fun _ => ⟨rest, rfl, ht⟩,
      fun h => absurd h ((by decide +kernel : ∀ m ∈ formats, m ∉ objects) n hk), fun h => absurd (by simp [hk]) h⟩
    rw [start_format env false as hk]
    apply fin_some
    rw [bind_some h.rebuilt, bind_some e1]
    exact e2
  · obtain ⟨d1, e1, hA⟩ := ins
    refine ⟨{ opening s d1 with active := none :: s.active, framesetOk := false }, ?_, ⟨hA, rfl, ⟨rfl, rfl, rfl, rfl, rfl, rfl, rfl⟩, rfl, rfl⟩,
      fun _ => rfl,
      fun h => absurd h ((by decide +kernel : ∀ m ∈ objects, m ≠ "form".toList) n hk),
      fun h => absurd h ((by decide +kernel : ∀ m ∈ objects, m ∉ "a".toList :: formats) n hk), fun _ => rfl, fun _ h => absurd hk h⟩
    rw [start_object env false as hk]
    apply fin_some
    rw [bind_some h.rebuilt, bind_some e1]
    rfl
  · obtain ⟨d1, e1, hA⟩ := ins
    have av : ∀ {l : List Str}, (∀ m ∈ l, m ∈ special) → n ∉ l := fun hl hn => hk (hl n hn)
    refine ⟨_, ?_, opens_insert hA s.framesetOk, marks_other s.framesetOk (av (by decide +kernel)) (av (by decide +kernel))
      (fun he => hk (he ▸ by decide +kernel))⟩
    rw [start_other env false as hk]
    apply fin_some
    rw [bind_some h.rebuilt]
    exact e1

end Verif.TreeBuild
