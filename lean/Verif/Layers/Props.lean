import Verif.Layers.Lemmas3

/-!
# C54, C68, C69, C71: how a page is split into layers
-/
namespace Verif.Layers
open Verif.Map

/-! ## Test pages -/

/-- A plain box. -/
def box (id : Nat) (x y w h : ℚ) : Elem := ⟨id, id, ⟨x, y, w, h⟩, none, 1, .other, none, none, none, false⟩

/-- A page: a header that is `fixed`, an article with a translucent note in it, an image and a footer behind
everything else. -/
def page : LTree :=
  .node (box 1 0 0 800 2000) [
    .node { box 2 0 0 800 50 with position := .fixed } [.node (box 3 10 10 100 20) []],
    .node (box 4 0 60 800 900) [
      .node { box 5 20 80 300 100 with opacity := 1/2 } [.node (box 6 30 90 100 20) []],
      .missing,
      .node { box 7 400 80 200 200 with isImg := true } []],
    .node { box 8 0 1900 800 100 with position := .relative, zIndex := some (-1) } [.node (box 9 10 1910 80 20) []]]

example : (docOrder page).Nodup := by decide +kernel

/-! ## C54 -/

/-- **C54**: the layers, from bottom to top, are the layers of the specification: the page and one for each
element that starts one, each with exactly the elements it leads, in document order.  They are sorted by stacking
level, and those of the same level are in document order. -/
theorem C54_layers (t : LTree) (h : (docOrder t).Nodup) :
    ((paintLayers (generateLayers t)).map Layer.desc).Perm (layersInDocOrder t) ∧
      ((paintLayers (generateLayers t)).map Layer.desc).Pairwise (fun a b => a.order ≤ b.order) ∧
      ∀ k, ((paintLayers (generateLayers t)).map Layer.desc).filter (fun d => d.order = k) =
        (layersInDocOrder t).filter (fun d => d.order = k) := by
  rw [← created_eq t h]
  exact ⟨descs_perm t, descs_sorted t, descs_filter t⟩

/-- **C54**: whatever the ids, the elements painted are those of the tree, each as often as it occurs there. -/
theorem C54_exactly_once (t : LTree) : (paintOrder (generateLayers t)).Perm (docOrder t) := by
  unfold paintOrder docOrder elems
  rw [flatMap_elements]
  refine ((descs_perm t).flatMap_right _).trans ?_
  exact stay_fresh_perm t [] false 0

/-- **C54**: every number in the list is that of a layer, the layer carries it, and no number comes twice. -/
theorem C54_numbers (t : LTree) :
    (paintLayers (generateLayers t)).map Layer.layerId = (generateLayers t).ids ∧ (generateLayers t).ids.Nodup := by
  constructor
  · rw [paintLayers_eq, gen_ids, List.map_filterMap]
    have hlt : ∀ i ∈ finalIds t, i < (created t).length := fun i hi =>
      List.mem_range.mp ((isort_perm _ _).mem_iff.mp hi)
    have : ∀ i ∈ finalIds t,
        ((created t)[i]?.map (Desc.layer i)).map Layer.layerId = some i := by
      intro i hi
      rw [List.getElem?_eq_getElem (hlt i hi)]
      rfl
    rw [List.filterMap_congr this, List.filterMap_some]
  · rw [gen_ids]
    exact (isort_perm _ _).nodup_iff.mpr List.nodup_range

/-- An element is painted in one layer only. -/
theorem C54_one_layer (t : LTree) (h : (docOrder t).Nodup) (i : Nat) (a b : Nat) (la lb : Layer)
    (ha : look (generateLayers t).layers a = some la) (hb : look (generateLayers t).layers b = some lb)
    (hia : i ∈ la.elements) (hib : i ∈ lb.elements) : a = b := by
  by_contra hab
  have hn : ((created t).flatMap Desc.elements).Nodup := by
    have := stay_fresh_perm t [] false 0
    exact this.nodup_iff.mpr h
  rw [gen_look] at ha hb
  rw [List.nodup_flatMap] at hn
  obtain ⟨da, hda, rfl⟩ := Option.map_eq_some_iff.mp ha
  obtain ⟨db, hdb, rfl⟩ := Option.map_eq_some_iff.mp hb
  have hp := List.pairwise_iff_getElem.mp hn.2
  obtain ⟨la', ga⟩ := List.getElem?_eq_some_iff.mp hda
  obtain ⟨lb', gb⟩ := List.getElem?_eq_some_iff.mp hdb
  rcases Nat.lt_or_gt_of_ne hab with hlt | hlt
  · have := hp a b la' lb' hlt
    rw [Function.onFun, ga, gb] at this
    exact this hia hib
  · have := hp b a lb' la' hlt
    rw [Function.onFun, ga, gb] at this
    exact this hib hia

/-- **C54**: within a layer, elements are in document order. -/
theorem C54_document_order (t : LTree) (h : (docOrder t).Nodup) (l : Layer)
    (hl : l ∈ paintLayers (generateLayers t)) : l.elements.Sublist (docOrder t) := by
  have : l.desc ∈ layersInDocOrder t := by
    rw [← created_eq t h]
    exact (descs_perm t).mem_iff.mp (List.mem_map_of_mem hl)
  have key : ∀ o, (membersOf t o).Sublist (docOrder t) := fun o => List.Sublist.map _ List.filter_sublist
  rw [show l.elements = l.desc.elements from rfl]
  rcases List.mem_cons.mp this with h1 | h1
  · rw [h1]; exact key _
  · obtain ⟨o, -, h2⟩ := List.mem_map.mp h1
    rw [← h2]; exact key _

/-- Ancestors come first in document order. -/
theorem C54_parents_first (t : LTree) (o : Occ) (ho : o ∈ elems t) (a : Elem) (ha : a ∈ o.ancestors) :
    Before (docOrder t) a.id o.self.id := by
  obtain ⟨p, q, hpq⟩ := List.append_of_mem ha
  exact (elems_ancestor t o ho a q ⟨p, hpq.symm⟩).map (·.self.id)

example : (paintLayers (generateLayers page)).map Layer.desc =
    [⟨-1, 1, .scroll, [8, 9]⟩, ⟨0, 1, .scroll, [1, 4]⟩, ⟨0, 1, .fixed, [2, 3]⟩, ⟨0, 1/2, .scroll, [5, 6]⟩,
     ⟨0, 1, .scroll, [7]⟩] := by decide +kernel

example : (generateLayers page).ids = [4, 0, 1, 2, 3] := by decide +kernel

/-! ## Order of painting -/

theorem sublist_flatMap {k l : List Desc} (h : k.Sublist l) :
    (k.flatMap Desc.elements).Sublist (l.flatMap Desc.elements) := by
  induction h with
  | slnil => exact List.Sublist.refl _
  | cons a _ ih => rw [List.flatMap_cons]; exact ih.trans (List.sublist_append_right _ _)
  | cons_cons a _ ih => rw [List.flatMap_cons, List.flatMap_cons]; exact List.Sublist.append (List.Sublist.refl _) ih

theorem before_flatMap {l : List Desc} {a b : Desc} {x y : Nat} (h : [a, b].Sublist l) (hx : x ∈ a.elements)
    (hy : y ∈ b.elements) : Before (l.flatMap Desc.elements) x y := by
  have h1 : ([a, b].flatMap Desc.elements).Sublist (l.flatMap Desc.elements) := sublist_flatMap h
  refine List.Sublist.trans ?_ h1
  simp only [List.flatMap_cons, List.flatMap_nil, List.append_nil]
  exact List.Sublist.append (l₁ := [x]) (List.singleton_sublist.mpr hx) (List.singleton_sublist.mpr hy)

theorem member {t : LTree} {o : Occ} (h : o ∈ elems t) : o.self.id ∈ membersOf t ((leader o).map Elem.id) :=
  List.mem_map_of_mem (f := fun o : Occ => o.self.id) (List.mem_filter.mpr ⟨h, by simp⟩)

theorem suffix_elems {t : LTree} {o : Occ} (h : o ∈ elems t) {x : Elem} {r : List Elem}
    (hs : (x :: r) <:+ (o.self :: o.ancestors)) : (⟨x, r⟩ : Occ) ∈ elems t := by
  rcases List.suffix_cons_iff.mp hs with h1 | h1
  · simp only [List.cons.injEq] at h1
    obtain ⟨rfl, rfl⟩ := h1
    exact h
  · exact (elems_ancestor t o h x r h1).subset (by simp)

/-- The layer of the elements led alike is there. -/
theorem layer_of {t : LTree} {o : Occ} (h : o ∈ elems t) :
    ∃ d ∈ layersInDocOrder t, d.elements = membersOf t ((leader o).map Elem.id) := by
  cases hl : leader o with
  | none => exact ⟨pageLayer t, by simp [layersInDocOrder], rfl⟩
  | some x =>
    obtain ⟨r, hs, hst⟩ := leader_suffix hl
    refine ⟨layerStartedBy t ⟨x, r⟩, ?_, rfl⟩
    exact List.mem_cons_of_mem _ (List.mem_map_of_mem (List.mem_filter.mpr ⟨suffix_elems h hs, by simpa using hst⟩))

theorem mem_flatMap_sublist {l : List Desc} {d : Desc} (h : d ∈ l) : d.elements.Sublist (l.flatMap Desc.elements) := by
  induction l with
  | nil => simp at h
  | cons c l ih =>
    rw [List.flatMap_cons]
    rcases List.mem_cons.mp h with rfl | h
    · exact List.sublist_append_left _ _
    · exact (ih h).trans (List.sublist_append_right _ _)

/-- Elements led alike are painted in document order. -/
theorem same_leader_before (t : LTree) (hn : (docOrder t).Nodup) {a b : Occ} (h : [a, b].Sublist (elems t))
    (hl : (leader a).map Elem.id = (leader b).map Elem.id) : Before (paintOrder (generateLayers t)) a.self.id b.self.id := by
  have ha : a ∈ elems t := h.subset (by simp)
  obtain ⟨d, hd, he⟩ := layer_of ha
  rw [← created_eq t hn] at hd
  have hd' := (descs_perm t).mem_iff.mpr hd
  unfold paintOrder
  rw [flatMap_elements]
  refine List.Sublist.trans ?_ (mem_flatMap_sublist hd')
  rw [he]
  unfold membersOf
  have h1 := (h.filter fun o => decide ((leader o).map Elem.id = (leader a).map Elem.id)).map (·.self.id)
  simpa [hl] using h1

theorem levelOf_suffix {chain : List Elem}
    (hm : ∀ e above, (e :: above) <:+ chain → levelOf above ≤ levelOf (e :: above)) :
    ∀ {l₂ l₁ : List Elem}, l₁ <:+ l₂ → l₂ <:+ chain → levelOf l₁ ≤ levelOf l₂ := by
  intro l₂
  induction l₂ with
  | nil => intro l₁ h _; rw [List.suffix_nil.mp h]
  | cons e r ih =>
    intro l₁ h hc
    rcases List.suffix_cons_iff.mp h with h1 | h1
    · rw [h1]
    · exact (ih h1 ((List.suffix_cons _ _).trans hc)).trans (hm e r hc)

theorem groupOf_append (mid l : List Elem) :
    groupOf (mid ++ l) = groupOf l ∨
      ∃ x p, groupOf (mid ++ l) = some x ∧ (x :: p) <:+ (mid ++ l) ∧ l <:+ p ∧ Promoted x p := by
  induction mid with
  | nil => exact Or.inl rfl
  | cons e r ih =>
    rw [List.cons_append, groupOf]
    by_cases hp : Promoted e (r ++ l)
    · rw [if_pos hp]
      exact Or.inr ⟨e, r ++ l, rfl, List.suffix_refl _, List.suffix_append _ _, hp⟩
    · rw [if_neg hp]
      rcases ih with h | ⟨x, p, h1, h2, h3, h4⟩
      · exact Or.inl h
      · exact Or.inr ⟨x, p, h1, h2.trans (List.suffix_cons _ _), h3, h4⟩

/-- **C68** (partial): an element is painted after, so over, an ancestor that is not an image, if no element
on the way down to it has a lower stacking level than its parent.  Missing: see `C68_violated`. -/
theorem C68_over_ancestors_partial (t : LTree) (hn : (docOrder t).Nodup) (o : Occ) (ho : o ∈ elems t) (a : Elem)
    (rest : List Elem) (ha : (a :: rest) <:+ o.ancestors) (himg : a.isImg = false)
    (hm : ∀ e above, (e :: above) <:+ (o.self :: o.ancestors) → levelOf above ≤ levelOf (e :: above)) :
    Before (paintOrder (generateLayers t)) a.id o.self.id := by
  have hpair := elems_ancestor t o ho a rest ha
  have hoa : (⟨a, rest⟩ : Occ) ∈ elems t := hpair.subset (by simp)
  have hla : leader ⟨a, rest⟩ = groupOf (a :: rest) := by
    unfold leader
    rw [groupOf]
    have : Starts ⟨a, rest⟩ ↔ Promoted a rest := by simp [Starts, himg]
    by_cases hp : Promoted a rest
    · rw [if_pos (this.mpr hp), if_pos hp]
    · rw [if_neg (fun h => hp (this.mp h)), if_neg hp]
  -- the layer of the element is that of the ancestor, or was started below it
  have hlead : leader o = leader ⟨a, rest⟩ ∨ ∃ x p, leader o = some x ∧ (x :: p) <:+ (o.self :: o.ancestors) ∧
      (a :: rest) <:+ p ∧ Starts ⟨x, p⟩ := by
    by_cases hs : Starts o
    · exact Or.inr ⟨o.self, o.ancestors, by rw [leader, if_pos hs], List.suffix_refl _, ha, hs⟩
    · obtain ⟨mid, hmid⟩ := ha
      rw [leader, if_neg hs, hla, ← hmid]
      rcases groupOf_append mid (a :: rest) with h | ⟨x, p, h1, h2, h3, h4⟩
      · exact Or.inl h
      · exact Or.inr ⟨x, p, h1, h2.trans (List.suffix_cons _ _), h3, Or.inl h4⟩
  rcases hlead with h | ⟨x, p, hx, hxs, hp, hst⟩
  · exact same_leader_before t hn hpair (by rw [h])
  · have hxe := suffix_elems ho hxs
    have hd2 : (layerStartedBy t ⟨x, p⟩).elements = membersOf t ((leader o).map Elem.id) := by rw [hx]; rfl
    have key : ∃ d1, [d1, layerStartedBy t ⟨x, p⟩].Sublist (layersInDocOrder t) ∧
        d1.elements = membersOf t ((leader ⟨a, rest⟩).map Elem.id) ∧ d1.order ≤ (layerStartedBy t ⟨x, p⟩).order := by
      cases hl : leader ⟨a, rest⟩ with
      | none =>
        refine ⟨pageLayer t, List.Sublist.cons_cons _ (List.singleton_sublist.mpr (List.mem_map_of_mem
          (List.mem_filter.mpr ⟨hxe, by simpa using hst⟩))), rfl, ?_⟩
        exact levelOf_suffix hm (List.nil_suffix (l := x :: p)) hxs
      | some y =>
        obtain ⟨yr, hy, hys⟩ := leader_suffix hl
        refine ⟨layerStartedBy t ⟨y, yr⟩, List.Sublist.cons _ ?_, rfl, ?_⟩
        · have h1 := (elems_ancestor t ⟨x, p⟩ hxe y yr (hy.trans hp)).filter fun o => decide (Starts o)
          have h2 := h1.map (layerStartedBy t)
          simpa [hys, hst] using h2
        · exact levelOf_suffix hm ((hy.trans hp).trans (List.suffix_cons _ _)) hxs
    obtain ⟨d1, hsub, he1, ho1⟩ := key
    rw [← created_eq t hn] at hsub
    unfold paintOrder
    rw [flatMap_elements]
    exact before_flatMap (descs_pair t hsub ho1) (he1 ▸ member hoa) (hd2 ▸ member ho)

/-- The translucent note of the test page meets the hypotheses for its ancestor 4. -/
example : ∃ o ∈ elems page, ∃ a rest, (a :: rest) <:+ o.ancestors ∧ a.isImg = false ∧ o.self.id = 6 ∧ a.id = 4 ∧
    ∀ e above, (e :: above) <:+ (o.self :: o.ancestors) → levelOf above ≤ levelOf (e :: above) := by
  refine ⟨⟨box 6 30 90 100 20, [{ box 5 20 80 300 100 with opacity := 1/2 }, box 4 0 60 800 900, box 1 0 0 800 2000]⟩,
    by decide +kernel, box 4 0 60 800 900, [box 1 0 0 800 2000], ⟨[{ box 5 20 80 300 100 with opacity := 1/2 }], rfl⟩,
    rfl, rfl, rfl, ?_⟩
  intro e above h
  simp only [List.suffix_cons_iff, List.cons.injEq, List.suffix_nil] at h
  rcases h with h | h | h | h | h
  · obtain ⟨rfl, rfl⟩ := h; decide
  · obtain ⟨rfl, rfl⟩ := h; decide
  · obtain ⟨rfl, rfl⟩ := h; decide
  · obtain ⟨rfl, rfl⟩ := h; decide
  · simp at h

/-- A panel at level 5 with a translucent badge at level 1 in it. -/
def badgePage : LTree :=
  .node (box 1 0 0 800 600) [
    .node { box 2 0 0 300 300 with position := .relative, zIndex := some 5 } [
      .node { box 3 10 10 50 50 with position := .absolute, zIndex := some 1, opacity := 1/2 } []]]

/-- **C68 is violated**: an element whose z-index is positive, but lower than that of the stacking
context it is in, is painted under the background of that context. -/
theorem C68_violated : ∃ t : LTree, (docOrder t).Nodup ∧ (∀ o ∈ elems t, ∀ z, o.self.zIndex = some z → 0 ≤ z) ∧
    ∃ o ∈ elems t, ∃ a ∈ o.ancestors, Before (paintOrder (generateLayers t)) o.self.id a.id := by
  refine ⟨badgePage, by decide +kernel, ?_, ?_⟩
  · have : ∀ o ∈ elems badgePage, (o.self.zIndex.getD 0) ≥ 0 := by decide +kernel
    intro o ho z hz
    have := this o ho
    rw [hz] at this
    exact this
  · refine ⟨⟨{ box 3 10 10 50 50 with position := .absolute, zIndex := some 1, opacity := 1/2 },
      [{ box 2 0 0 300 300 with position := .relative, zIndex := some 5 }, box 1 0 0 800 600]⟩, by decide +kernel,
      { box 2 0 0 300 300 with position := .relative, zIndex := some 5 }, by simp, ?_⟩
    have : paintOrder (generateLayers badgePage) = [1, 3, 2] := by decide +kernel
    rw [this]
    show [3, 2].Sublist [1, 3, 2]
    decide

/-! ## C69 -/

/-- Nothing takes the element out of the normal flow of painting. -/
def Plain (o : Occ) : Prop := ∀ e ∈ o.self :: o.ancestors, ¬ Forced e ∧ ¬ HasZ e ∧ e.isImg = false

theorem leader_plain {o : Occ} (h : Plain o) : leader o = none := by
  have hg : ∀ l : List Elem, (∀ e ∈ l, ¬ Forced e ∧ ¬ HasZ e ∧ e.isImg = false) → groupOf l = none := by
    intro l
    induction l with
    | nil => intro _; rfl
    | cons e r ih =>
      intro hl
      rw [groupOf, if_neg]
      · exact ih fun x hx => hl x (List.mem_cons_of_mem _ hx)
      · have := hl e (by simp)
        unfold Promoted
        tauto
  unfold leader
  have hs := h o.self (by simp)
  rw [if_neg, hg _ fun e he => h e (List.mem_cons_of_mem _ he)]
  unfold Starts Promoted
  simp [hs]

/-- **C69** (partial): two elements are painted in document order if neither they nor their ancestors are
positioned with a z-index, `fixed`, `sticky`, translucent or images.  Missing: images, see `C69_violated`. -/
theorem C69_flow_order_partial (t : LTree) (hn : (docOrder t).Nodup) (a b : Occ) (h : [a, b].Sublist (elems t))
    (ha : Plain a) (hb : Plain b) : Before (paintOrder (generateLayers t)) a.self.id b.self.id :=
  same_leader_before t hn h (by rw [leader_plain ha, leader_plain hb])

example : [(⟨box 1 0 0 800 2000, []⟩ : Occ), ⟨box 4 0 60 800 900, [box 1 0 0 800 2000]⟩].Sublist (elems page) := by
  decide +kernel

example : Plain ⟨box 4 0 60 800 900, [box 1 0 0 800 2000]⟩ := by
  intro e he
  simp only [List.mem_cons, List.not_mem_nil, or_false] at he
  rcases he with rfl | rfl <;> refine ⟨by decide +kernel, by decide +kernel, rfl⟩

/-- An image and, after it, a caption laid over it. -/
def captionPage : LTree :=
  .node (box 1 0 0 800 600) [.node { box 2 0 0 300 300 with isImg := true } [], .node (box 3 0 200 300 100) []]

/-- **C69 is violated**: with nothing positioned, an image is painted over what follows it. -/
theorem C69_violated : ∃ t : LTree, (docOrder t).Nodup ∧ (∀ o ∈ elems t, ¬ Forced o.self ∧ ¬ HasZ o.self) ∧
    ∃ a b, Before (docOrder t) a b ∧ Before (paintOrder (generateLayers t)) b a := by
  refine ⟨captionPage, by decide +kernel, by decide +kernel, 2, 3, ?_, ?_⟩
  · show [2, 3].Sublist _
    decide +kernel
  · show [3, 2].Sublist _
    decide +kernel

/-! ## C71 -/

theorem grouped_groupIf {s : State} {b : Bool} {d x : Nat} (h : x ∈ s.grouped) :
    x ∈ (if b = true then addGrouped s d else s).grouped := by
  split
  · exact List.mem_cons_of_mem _ h
  · exact h

mutual
theorem grouped_mono (t : LTree) : ∀ (s : State) (l : Nat) (g f : Bool) (o : Int) (x : Nat), x ∈ s.grouped →
    x ∈ (traverse s l t g f o).grouped := by
  intro s l g f o x h
  match t with
  | .missing => simpa [traverse] using h
  | .node e cs =>
    rw [traverse]
    by_cases hp : promoted e g = true
    · simp only [if_pos hp]
      exact grouped_mono_all cs _ _ _ _ _ _ (grouped_groupIf h)
    · simp only [if_neg hp]
      by_cases hi : (e.isImg && !g) = true
      · simp only [if_pos hi]
        exact grouped_mono_all cs _ _ _ _ _ _ h
      · simp only [if_neg hi]
        exact grouped_mono_all cs _ _ _ _ _ _ (grouped_groupIf h)
theorem grouped_mono_all (ts : List LTree) : ∀ (s : State) (l : Nat) (g f : Bool) (o : Int) (x : Nat), x ∈ s.grouped →
    x ∈ (traverseAll s l ts g f o).grouped := by
  intro s l g f o x h
  match ts with
  | [] => simpa [traverseAll] using h
  | t :: r =>
    rw [traverseAll]
    exact grouped_mono_all r _ _ _ _ _ _ (grouped_mono t _ _ _ _ _ _ h)
end

mutual
theorem grouped_faded (t : LTree) : ∀ (s : State) (l : Nat) (g f : Bool) (z : Int) (above : List Elem) (o : Occ),
    o ∈ occs above t → o.self.opacity < 1 → o.self.dom ∈ (traverse s l t g f z).grouped := by
  intro s l g f z above o ho h
  match t with
  | .missing => simp [occs] at ho
  | .node e cs =>
    rw [occs, List.mem_cons] at ho
    rw [traverse]
    rcases ho with rfl | ho
    · have hp : promoted e g = true := by
        simp only [promoted, Bool.or_eq_true]
        exact Or.inl ((compositing_iff e).mpr (Or.inl h))
      have hc : decide (clampOpacity e < 1) = true := by
        rw [decide_eq_true_eq, clampOpacity_eq]
        exact max_lt (by norm_num) (lt_of_le_of_lt (min_le_right _ _) h)
      simp only [if_pos hp, hc, if_true]
      exact grouped_mono_all cs _ _ _ _ _ _ (by simp [addGrouped])
    · by_cases hp : promoted e g = true
      · simp only [if_pos hp]
        exact grouped_faded_all cs _ _ _ _ _ _ o ho h
      · simp only [if_neg hp]
        by_cases hi : (e.isImg && !g) = true
        · simp only [if_pos hi]
          exact grouped_faded_all cs _ _ _ _ _ _ o ho h
        · simp only [if_neg hi]
          exact grouped_faded_all cs _ _ _ _ _ _ o ho h
theorem grouped_faded_all (ts : List LTree) : ∀ (s : State) (l : Nat) (g f : Bool) (z : Int) (above : List Elem) (o : Occ),
    o ∈ occsAll above ts → o.self.opacity < 1 → o.self.dom ∈ (traverseAll s l ts g f z).grouped := by
  intro s l g f z above o ho h
  match ts with
  | [] => simp [occsAll] at ho
  | t :: r =>
    rw [occsAll, List.mem_append] at ho
    rw [traverseAll]
    rcases ho with ho | ho
    · exact grouped_mono_all r _ _ _ _ _ _ (grouped_faded t _ _ _ _ _ _ o ho h)
    · exact grouped_faded_all r _ _ _ _ _ _ o ho h
end

/-- The painter never fades an element by itself: the layer does. -/
theorem elementOpacity_one (t : LTree) (o : Occ) (ho : o ∈ elems t) : elementOpacity (generateLayers t) o.self = 1 := by
  unfold elementOpacity
  split
  · rfl
  · rename_i hg
    rw [if_pos]
    by_contra hlt
    exact hg (grouped_faded t _ _ _ _ _ [] o ho (not_le.mp hlt))

/-- An element is in the layer of its leader. -/
theorem layer_desc (t : LTree) (hn : (docOrder t).Nodup) (o : Occ) (ho : o ∈ elems t) (l : Layer)
    (hl : l ∈ paintLayers (generateLayers t)) (hi : o.self.id ∈ l.elements) :
    (leader o = none ∧ l.desc = pageLayer t) ∨
      ∃ x r, leader o = some x ∧ (x :: r) <:+ (o.self :: o.ancestors) ∧ l.desc = layerStartedBy t ⟨x, r⟩ := by
  have hd : l.desc ∈ layersInDocOrder t := by
    rw [← created_eq t hn]
    exact (descs_perm t).mem_iff.mp (List.mem_map_of_mem hl)
  have huniq : ∀ p : Occ, p ∈ elems t → p.self.id = o.self.id → p = o := by
    intro p hp he
    exact List.inj_on_of_nodup_map hn hp ho he
  have hmem : ∀ k, o.self.id ∈ membersOf t k → (leader o).map Elem.id = k := by
    intro k hk
    obtain ⟨p, hp, he⟩ := List.mem_map.mp hk
    have := List.mem_filter.mp hp
    rw [← huniq p this.1 he]
    simpa using this.2
  rcases List.mem_cons.mp hd with h1 | h1
  · have h2 : o.self.id ∈ membersOf t none := by
      have : l.elements = membersOf t none := congrArg Desc.elements h1
      rwa [this] at hi
    exact Or.inl ⟨by simpa using hmem _ h2, h1⟩
  · obtain ⟨x, hx, h2⟩ := List.mem_map.mp h1
    have h3 : o.self.id ∈ membersOf t (some x.self.id) := by
      have : l.elements = membersOf t (some x.self.id) := (congrArg Desc.elements h2).symm
      rwa [this] at hi
    have h4 := hmem _ h3
    obtain ⟨y, hy, hyx⟩ := Option.map_eq_some_iff.mp h4
    obtain ⟨r, hr, hrs⟩ := leader_suffix hy
    have hye := suffix_elems ho hr
    have : (⟨y, r⟩ : Occ) = x := List.inj_on_of_nodup_map hn hye (List.mem_of_mem_filter hx) hyx
    exact Or.inr ⟨y, r, hy, hr, by rw [this, h2]⟩

/-- What an element is faded by in all: the opacity of its layer times its own factor. -/
def fade (s : State) (l : Layer) (e : Elem) : ℚ := l.opacity * elementOpacity s e

/-- **C71** (partial): an element is faded exactly as it should be, and not twice, if of it and its ancestors
only the one that starts its layer can be translucent.  Missing: nested translucent groups, see `C71_violated`. -/
theorem C71_fade_partial (t : LTree) (hn : (docOrder t).Nodup) (o : Occ) (ho : o ∈ elems t) (l : Layer)
    (hl : l ∈ paintLayers (generateLayers t)) (hi : o.self.id ∈ l.elements)
    (h : ∀ e ∈ o.self :: o.ancestors, leader o ≠ some e → 1 ≤ e.opacity) :
    fade (generateLayers t) l o.self = cssOpacity (o.self :: o.ancestors) := by
  have hone : ∀ c : List Elem, (∀ e ∈ c, 1 ≤ e.opacity) → cssOpacity c = 1 := by
    intro c
    induction c with
    | nil => intro _; rfl
    | cons e c ih =>
      intro hc
      have h2 := ih fun x hx => hc x (List.mem_cons_of_mem _ hx)
      unfold cssOpacity at *
      rw [List.map_cons, List.prod_cons, h2, mul_one]
      unfold clamp01
      rw [min_eq_left (hc e (by simp)), max_eq_right (by norm_num)]
  unfold fade
  rw [elementOpacity_one t o ho, mul_one]
  rcases layer_desc t hn o ho l hl hi with ⟨hle, hd⟩ | ⟨x, r, hle, hs, hd⟩
  · rw [hone _ fun e he => h e he (by simp [hle])]
    exact congrArg Desc.opacity hd
  · rw [show l.opacity = clamp01 x.opacity from congrArg Desc.opacity hd]
    have hx := suffix_elems ho hs
    -- the chain holds the leader once
    have hone' : ∀ q, (x :: q) <:+ (o.self :: o.ancestors) → q = r := by
      intro q hq
      have : (⟨x, q⟩ : Occ) = ⟨x, r⟩ := List.inj_on_of_nodup_map hn (suffix_elems ho hq) hx rfl
      exact congrArg Occ.ancestors this
    obtain ⟨p, hp⟩ := hs
    have hnp : x ∉ p := by
      intro hxp
      obtain ⟨p1, p2, rfl⟩ := List.append_of_mem hxp
      have := congrArg List.length (hone' (p2 ++ x :: r) ⟨p1, by rw [← hp]; simp⟩)
      simp at this
      omega
    have hnr : x ∉ r := by
      intro hxr
      obtain ⟨p1, p2, hr⟩ := List.append_of_mem hxr
      have := congrArg List.length (hone' p2 ⟨p ++ x :: p1, by rw [← hp, hr]; simp⟩)
      rw [hr] at this
      simp at this
      omega
    rw [← hp] at h ⊢
    have hp1 := hone p fun e he => h e (by simp [he]) (by rw [hle]; rintro ⟨⟩; exact hnp he)
    have hr1 := hone r fun e he => h e (by simp [he]) (by rw [hle]; rintro ⟨⟩; exact hnr he)
    unfold cssOpacity at *
    rw [List.map_append, List.prod_append, List.map_cons, List.prod_cons, hp1, hr1, one_mul, mul_one]

example : ∀ e ∈ [box 6 30 90 100 20, { box 5 20 80 300 100 with opacity := 1/2 }, box 4 0 60 800 900, box 1 0 0 800 2000],
    leader ⟨box 6 30 90 100 20, [{ box 5 20 80 300 100 with opacity := 1/2 }, box 4 0 60 800 900, box 1 0 0 800 2000]⟩ ≠
      some e → 1 ≤ e.opacity := by decide +kernel

/-- **C71**: in general an element is faded by the opacity of the element that starts its layer, and nothing else. -/
theorem C71_fade_by_leader (t : LTree) (hn : (docOrder t).Nodup) (o : Occ) (ho : o ∈ elems t) (l : Layer)
    (hl : l ∈ paintLayers (generateLayers t)) (hi : o.self.id ∈ l.elements) :
    fade (generateLayers t) l o.self = ((leader o).map fun x => clamp01 x.opacity).getD 1 := by
  unfold fade
  rw [elementOpacity_one t o ho, mul_one]
  rcases layer_desc t hn o ho l hl hi with ⟨hle, hd⟩ | ⟨x, r, hle, hs, hd⟩
  · rw [hle]; exact congrArg Desc.opacity hd
  · rw [hle]; exact congrArg Desc.opacity hd

example : ∃ l ∈ paintLayers (generateLayers page), 6 ∈ l.elements ∧
    fade (generateLayers page) l (box 6 30 90 100 20) = 1/2 := by decide +kernel

/-- A translucent panel with a translucent button in it. -/
def nestedPage : LTree :=
  .node (box 1 0 0 800 600) [
    .node { box 2 0 0 300 300 with opacity := 1/2 } [.node { box 3 10 10 50 50 with opacity := 1/2 } []]]

/-- **C71 is violated**: a translucent element in a translucent one is faded by its own opacity only. -/
theorem C71_violated : ∃ t : LTree, (docOrder t).Nodup ∧ ∃ o ∈ elems t, ∃ l ∈ paintLayers (generateLayers t),
    o.self.id ∈ l.elements ∧ fade (generateLayers t) l o.self ≠ cssOpacity (o.self :: o.ancestors) := by
  refine ⟨nestedPage, by decide +kernel, ⟨{ box 3 10 10 50 50 with opacity := 1/2 },
    [{ box 2 0 0 300 300 with opacity := 1/2 }, box 1 0 0 800 600]⟩, by decide +kernel, ?_⟩
  decide +kernel

end Verif.Layers
