import Verif.TreeBuild.Trip5

/-!
# C106: end tags in flow content; an element with its content
-/
namespace Verif.TreeBuild
open Verif Verif.Dom

/-! ## End tags -/

/-- the element opened in `s` is closed: the state before the end tag is `u`, and the one after it `s3` -/
structure Closes (s u s3 : St) : Prop where
  steady : Steady u s3
  doc : s3.doc = u.doc
  mode : s3.mode = u.mode
  calm : s3.switch = u.switch
  opened : s3.opened = s.opened
  form : s3.form = s.form
  act : Trim s.active s3.active

theorem filterMap_some_mem {l : List (Option Nat)} {e : Nat} (h : some e ∈ l) : e ∈ l.filterMap id :=
  List.mem_filterMap.2 ⟨_, h, rfl⟩

theorem Inside.fresh {s : St} {above : List Str} (h : Inside s above) : some s.doc.nextId ∉ s.active := fun hm =>
  Nat.lt_irrefl _ (h.lt (h.act.subset (filterMap_some_mem hm)))

theorem Inside.opens {s s1 : St} {above : List Str} (h : Inside s above) {n : Str} {as : Attrs} (ho : Opens s s1 n as)
    (hm : Marks s s1 n) (hn : n ≠ "template".toList) : Inside s1 (n :: above) := by
  refine h.push ho.steady ho.added ho.opened ?_ hm.form hn
  rw [ho.opened]
  by_cases h1 : n ∈ "a".toList :: formats
  · obtain ⟨rest, h2, h3⟩ := hm.format h1
    rw [h2]
    exact ((h3.sub.filterMap id).trans h.act).cons_cons _
  · by_cases h2 : n ∈ objects
    · rw [hm.object h2]
      exact h.act.trans (List.sublist_cons_self _ _)
    · rw [hm.other h1 h2]
      exact h.act.trans (List.sublist_cons_self _ _)

theorem Inside.noTemplate {s : St} {above : List Str} (h : Inside s above) : hasOpen "template" s = false := by
  unfold hasOpen
  rw [List.any_eq_false]
  intro x hx
  rw [is_not (h.absent h.plain hx)]
  simp

theorem endForm_some {s : St} {n : Str} {f : Nat} (h : hasOpen "template" s = false) (hf : s.form = some f) :
    endForm n s = fin (do
      setForm none
      whenM (inScope n .regular) (do
        implied none false
        removeOpen f)) s := by
  unfold endForm
  refine (if_not (a := endBlock n .regular none (pure ())) h).trans ?_
  simp only [hf]

theorem close_flow {s s1 u : St} {above : List Str} (h : Inside s above) {n : Str} {as : Attrs} (hv : n ∉ voids) (ht : n ∉ texts)
    (hm : MayBe above n) (ho : Opens s s1 n as) (hk : Marks s s1 n) {new : List Nat} (ha : After s1 u new) :
    ∃ s3, inBodyEnd n u = some (.done, s3) ∧ Closes s u s3 := by
  have hnt : n ≠ "template".toList := fun he => hm.flow (he ▸ by decide +kernel)
  have hu : Inside u (n :: above) := ha.ready (h.opens ho hk hnt)
  have hop : u.opened = s.doc.nextId :: s.opened := ha.opened.trans ho.opened
  have top : Top u s.doc.nextId s.opened n := hu.top hop
  have plainly : n ≠ "form".toList → n ∉ "a".toList :: formats → n ∉ objects → Closes s u (closing u s.opened) :=
    fun h1 h2 h3 => ⟨⟨rfl, rfl, rfl, rfl, rfl, rfl, rfl⟩, rfl, rfl, rfl, rfl, ha.form.trans (hk.form h1), by
      have := ha.act; rw [hk.other h2 h3] at this; exact this⟩
  have formatting : n ∈ "a".toList :: formats → ∃ s3, fin (adoption n) u = some (.done, s3) ∧ Closes s u s3 := by
    intro hf
    have hne : n ≠ "form".toList := (by decide +kernel : ∀ m ∈ "a".toList :: formats, m ≠ "form".toList) n hf
    obtain ⟨rest, h1, h2⟩ := hk.format hf
    have h3 := ha.act
    rw [h1] at h3
    rcases trim_cons h3 (fun hm => h.fresh (h2.sub.subset hm)) with ⟨h4, h5⟩ | ⟨a', h4, h5⟩
    · exact ⟨closing u s.opened, fin_some (adoption_gone top h4),
        ⟨⟨rfl, rfl, rfl, rfl, rfl, rfl, rfl⟩, rfl, rfl, rfl, rfl, ha.form.trans (hk.form hne), h2.trans h5⟩⟩
    · exact ⟨{ u with opened := s.opened, active := a' }, fin_some (adoption_here top hf h4),
        ⟨⟨rfl, rfl, rfl, rfl, rfl, rfl, rfl⟩, rfl, rfl, rfl, rfl, ha.form.trans (hk.form hne), h2.trans h5⟩⟩
  rcases kind2 hm.flow hv ht with hk' | hk' | hk' | hk' | hk' | hk' | hk' | hk' | hk' | hk' | hk'
  · refine ⟨_, ?_, plainly ((by decide +kernel : ∀ m ∈ blocks, m ≠ "form".toList) n hk')
      ((by decide +kernel : ∀ m ∈ blocks, m ∉ "a".toList :: formats) n hk') ((by decide +kernel : ∀ m ∈ blocks, m ∉ objects) n hk')⟩
    rw [end_block (by simp [hk'])]
    exact top.endBlock (Or.inr ((by decide +kernel : ∀ m ∈ blocks, oneOf m impliedTags = false) n hk')) rfl
  · subst hk'
    refine ⟨_, ?_, plainly (by decide +kernel) (by decide +kernel) (by decide +kernel)⟩
    rw [end_p]
    apply fin_some
    rw [bind_some (a := ()) (s' := u) (if_yes (top.inScope .button))]
    unfold closeP
    rw [bind_some (top.implied (Or.inl rfl))]
    exact top.popNamed
  · refine ⟨_, ?_, plainly ((by decide +kernel : ∀ m ∈ heads, m ≠ "form".toList) n hk')
      ((by decide +kernel : ∀ m ∈ heads, m ∉ "a".toList :: formats) n hk') ((by decide +kernel : ∀ m ∈ heads, m ∉ objects) n hk')⟩
    rw [end_heading hk', if_yes]
    · apply fin_some
      rw [bind_some (top.implied (Or.inl rfl))]
      exact top.popAny ((by decide +kernel : ∀ m ∈ heads, oneOf m headings = true) n hk')
    · rw [List.any_eq_true]
      have hx : ∀ m ∈ heads, ∃ x ∈ headings, m = x.toList := by decide +kernel
      obtain ⟨x, hx1, hx2⟩ := hx n hk'
      refine ⟨x, hx1, ?_⟩
      show inScope x.toList .regular u = true
      rw [← hx2]; exact top.inScope _
  · subst hk'
    refine ⟨{ u with opened := s.opened, form := none }, ?_, ⟨⟨rfl, rfl, rfl, rfl, rfl, rfl, rfl⟩, rfl, rfl, rfl, rfl,
      (h.form (hm.once (by decide +kernel))).symm, ?_⟩⟩
    · have hf : u.form = some s.doc.nextId := ha.form.trans (hk.isForm rfl)
      rw [end_form, endForm_some hu.noTemplate hf]
      apply fin_some
      have top' : Top { u with form := none } s.doc.nextId s.opened "form".toList := ⟨top.opened, top.name, top.html, top.here, top.fresh⟩
      rw [bind_some (a := ()) (s' := { u with form := none }) rfl]
      rw [when_yes (top'.inScope .regular), bind_some (top'.implied (Or.inr (by decide +kernel)))]
      show some ((), ({ u with opened := u.opened.filter (fun i => decide (i ≠ s.doc.nextId)), form := none } : St)) = _
      have : u.opened.filter (fun i => decide (i ≠ s.doc.nextId)) = s.opened := by
        rw [hop, List.filter_cons_of_neg (by simp), List.filter_eq_self]
        intro x hx
        exact decide_eq_true fun he => top.fresh (he ▸ hx)
      rw [this]
    · have := ha.act; rw [hk.other (by decide +kernel) (by decide +kernel)] at this; exact this
  · subst hk'
    refine ⟨_, ?_, plainly (by decide +kernel) (by decide +kernel) (by decide +kernel)⟩
    rw [end_li]
    exact top.endBlock (Or.inl rfl) rfl
  · refine ⟨_, ?_, plainly ((by decide +kernel : ∀ m ∈ names ["dd", "dt"], m ≠ "form".toList) n hk')
      ((by decide +kernel : ∀ m ∈ names ["dd", "dt"], m ∉ "a".toList :: formats) n hk')
      ((by decide +kernel : ∀ m ∈ names ["dd", "dt"], m ∉ objects) n hk')⟩
    rw [end_term hk']
    exact top.endBlock (Or.inl rfl) rfl
  · subst hk'
    refine ⟨_, ?_, plainly (by decide +kernel) (by decide +kernel) (by decide +kernel)⟩
    rw [end_block (by simp)]
    exact top.endBlock (Or.inr (by decide +kernel)) rfl
  · subst hk'
    rw [end_format (by simp)]
    exact formatting (by simp)
  · rw [end_format (by simp [hk'])]
    exact formatting (by simp [hk'])
  · have h1 := ha.act
    rw [hk.object hk'] at h1
    have h2 : afterMarker u.active = s.active := h1.marker
    refine ⟨{ u with opened := s.opened, active := s.active }, ?_, ⟨⟨rfl, rfl, rfl, rfl, rfl, rfl, rfl⟩, rfl, rfl, rfl, rfl,
      ha.form.trans (hk.form ((by decide +kernel : ∀ m ∈ objects, m ≠ "form".toList) n hk')), Trim.refl _⟩⟩
    rw [end_object hk']
    refine top.endBlock (Or.inr ((by decide +kernel : ∀ m ∈ objects, oneOf m impliedTags = false) n hk')) ?_
    show some ((), ({ u with opened := s.opened, active := afterMarker u.active } : St)) = _
    rw [h2]
  · have av : ∀ {l : List Str}, (∀ m ∈ l, m ∈ special) → n ∉ l := fun hl hn => hk' (hl n hn)
    refine ⟨_, ?_, plainly (fun he => hk' (he ▸ by decide +kernel)) (av (by decide +kernel)) (av (by decide +kernel))⟩
    rw [end_other hk']
    exact fin_some top.otherEnd

/-! ## Trees that have been read -/

/-- the parser reads the tokens of the tree, and the tree is then the last child of the current node -/
def Result (env : Env) (s : St) (t : Tree) : Prop :=
  ∃ s' i, Reads env s t.tokens s' ∧ After s s' [i] ∧ TreeFrom s'.doc s.doc.nextId i t

def Results (env : Env) (s : St) (ts : List Tree) : Prop :=
  ∃ s' new, Reads env s (allTokens ts) s' ∧ After s s' new ∧ TreesFrom s'.doc s.doc.nextId new ts

theorem nest {env : Env} {s s1 s2 s3 : St} {above : List Str} (hR : Inside s above) {n : Str} {as : Attrs} {kids : List Tree}
    (hn : n ∉ voids) (h1 : Reads env s [.startTag n false as] s1) (ho : Added s.doc s1.doc (current s) (elementData n htmlNs as))
    (h2 : Reads env s1 (allTokens kids) s2) {new : List Nat} (hg : Grow s1.doc s2.doc s.doc.nextId new)
    (ht : TreesFrom s2.doc s1.doc.nextId new kids) (h3 : Reads env s2 [.endTag n] s3) (hs : Steady s s3) (hd : s3.doc = s2.doc)
    (hm : s3.mode = s.mode) (hop : s3.opened = s.opened) (hf : s3.form = s.form) (ha : Trim s.active s3.active) :
    Result env s (.elem n as kids) := by
  refine ⟨s3, s.doc.nextId, ?_, ⟨hs, hm, hop, hf, ha, ?_⟩, ?_⟩
  · unfold Tree.tokens
    rw [if_neg hn]
    exact h1.trans (h2.trans h3)
  · rw [hd]; exact ho.under (hR.lt hR.cur) hg
  · rw [hd]; exact treeFrom_elem ho hg ht

theorem childless {d d1 : Doc} {p : Nat} {n : Str} {as : Attrs} (h : Added d d1 p (elementData n htmlNs as)) :
    TreeFrom d1 d.nextId d.nextId (.elem n as []) := by
  refine treeFrom_elem h (Grow.refl h.arena _) (new := []) ?_
  rfl

/-! ## Flow content -/

theorem notFlow_cell {n : Str} (h : n ∉ notFlow) (hc : n ≠ "col".toList) : oneOf n cellBreakers = false := by
  have h' : n ∉ "col".toList :: notFlow := by rw [List.mem_cons, not_or]; exact ⟨hc, h⟩
  exact oneOf_avoid h' (by decide +kernel)

theorem At.opened {s s1 : St} {above : List Str} (hA : At s .flow) (h : Inside s above) {n : Str} {as : Attrs} (ho : Opens s s1 n as)
    (hn : n ∉ notFlow) : At s1 .flow := by
  refine ⟨by rw [ho.mode]; exact hA.1, ?_⟩
  obtain ⟨x, r, hx⟩ := List.exists_cons_of_ne_nil h.stack
  have htag : tag s1.doc s.doc.nextId = n := by unfold tag elem; rw [ho.added.new]; rfl
  have h1 : resetMode s1 s.opened = resetMode s s.opened := h.reset_eq ho.steady ho.added.grow
  rw [ho.opened, ho.mode, ← hA.2, ← h1, hx]
  conv_lhs => unfold resetMode
  rw [modeFor_none (by rw [htag]; exact hn)]

theorem At.hush {s : St} {above : List Str} {w : Where} (hA : At s w) (h : Inside s above) : At (hush s) w := by
  cases w with
  | flow =>
    refine ⟨hA.1, ?_⟩
    have : resetMode (TreeBuild.hush s) s.opened = resetMode s s.opened := resetMode_congr (s := s) (s' := TreeBuild.hush s) rfl rfl h.context h.context fun _ _ => rfl
    exact this.trans hA.2
  | _ => exact hA

theorem contentOf_none {n : Str} (h : n ∉ texts) : contentOf n = none := by
  unfold contentOf
  rw [if_neg (by rintro rfl; exact h (by decide +kernel)), if_neg (by rintro rfl; exact h (by decide +kernel)), if_neg h]

theorem voids_texts {n : Str} (h : n ∈ voids) : n ∉ texts := (by decide +kernel : ∀ m ∈ voids, m ∉ texts) n h

theorem flow_elem {env : Env} {s : St} {above : List Str} (h : Inside s above) (hA : At s .flow) {n : Str} (as : Attrs)
    {kids : List Tree} (hv : n ∉ voids) (ht : n ∉ texts) (hm : MayBe above n)
    (ih : ∀ s1, Inside s1 (n :: above) → At s1 .flow → NoText s1 → Results env s1 kids) : Result env s (.elem n as kids) := by
  have hc : n ≠ "col".toList := fun he => hv (he ▸ by decide +kernel)
  have hnt : n ≠ "template".toList := fun he => hm.flow (he ▸ by decide +kernel)
  obtain ⟨s1, e1, ho, hk⟩ := open_flow env h.hush hv ht hm as
  have hR1 : Inside s1 (n :: above) := h.hush.opens ho hk hnt
  have hA1 : At s1 .flow := (hA.hush h).opened h.hush ho hm.flow
  have hN : NoText s1 := by
    intro i hi
    have : children s1.doc (current s1) = [] := by
      unfold current children
      rw [ho.opened]
      show ((nodeAt s1.doc (hush s).doc.nextId).map _).getD [] = []
      rw [ho.added.new]; rfl
    rw [this] at hi; cases hi
  obtain ⟨s2, new, r2, ha, htr⟩ := ih s1 hR1 hA1 hN
  obtain ⟨s3, e3, hcl⟩ := close_flow h.hush hv ht hm ho hk (u := hush s2) (new := new)
    ⟨⟨ha.steady.foster, ha.steady.lf, ha.steady.queue, ha.steady.context, ha.steady.tmodes, ha.steady.fin, ha.steady.head⟩, ha.mode,
      ha.opened, ha.form, ha.act, ha.grow⟩
  have hcur : current s1 = s.doc.nextId := by unfold current; rw [ho.opened]; rfl
  have r1 : Reads env s [.startTag n false as] s1 := by
    refine read_done h.isPlain ?_ ?_
    · rw [flow_start hA.1 (notFlow_cell hm.flow hc)]
      exact e1
    · exact ⟨ho.steady.queue.trans h.queue, ho.calm.trans (contentOf_none ht).symm⟩
  have r3 : Reads env s2 [.endTag n] s3 := by
    refine read_done (ha.ready hR1).isPlain ?_ ⟨hcl.steady.queue.trans (ha.steady.queue.trans (ho.steady.queue.trans h.queue)), hcl.calm⟩
    rw [flow_end (hA1.after hR1 ha).1 hm.flow hv]
    exact e3
  have st : Steady s s3 := by
    have a := ho.steady
    have b := ha.steady
    have c := hcl.steady
    exact ⟨c.foster.trans (b.foster.trans a.foster), c.lf.trans (b.lf.trans a.lf), c.queue.trans (b.queue.trans a.queue),
      c.context.trans (b.context.trans a.context), c.tmodes.trans (b.tmodes.trans a.tmodes), c.fin.trans (b.fin.trans a.fin),
      c.head.trans (b.head.trans a.head)⟩
  refine nest h hv r1 ho.added r2 (hcur ▸ ha.grow) htr r3 st hcl.doc (hcl.mode.trans (ha.mode.trans ho.mode)) hcl.opened hcl.form hcl.act

theorem leaf_text {d d1 : Doc} {p : Nat} {v : Str} (h : Added d d1 p (.text v)) : TreeFrom d1 d.nextId d.nextId (.text v) :=
  ⟨⟨Nat.le_refl _, by rw [h.next]; exact Nat.lt_succ_self _⟩, by unfold dataAt; rw [h.new]; rfl, by unfold children; rw [h.new]; rfl⟩

theorem leaf_comment {d d1 : Doc} {p : Nat} {v : Str} (h : Added d d1 p (.comment v)) : TreeFrom d1 d.nextId d.nextId (.comment v) :=
  ⟨⟨Nat.le_refl _, by rw [h.next]; exact Nat.lt_succ_self _⟩, by unfold dataAt; rw [h.new]; rfl, by unfold children; rw [h.new]; rfl⟩

theorem flow_string {env : Env} {s : St} {above : List Str} (h : Inside s above) (hA : At s .flow) {v : Str} (hv : v ≠ [])
    (h0 : Char.ofNat 0 ∉ v) (hN : NoText s) : Result env s (.text v) := by
  obtain ⟨d1, e1, hA1⟩ := insertText_new h.hush (show NoText (hush s) from hN) hv
  have hz : v.any (fun c => decide (c = nul)) = false := by
    rw [List.any_eq_false]
    intro c hc he
    have he := of_decide_eq_true he
    subst he
    exact h0 hc
  have hr : ∃ s', byMode env s.mode (.text v) (hush s) = some (.done, s') ∧ Steady s s' ∧ s'.mode = s.mode ∧ s'.opened = s.opened ∧
      s'.form = s.form ∧ s'.active = s.active ∧ s'.doc = d1 ∧ s'.switch = none := by
    rw [flow_text hA.1]
    show ∃ s', (if isMixedNull v then _ else if isNull v then _ else _ : M Next) (hush s) = _ ∧ _
    unfold isMixedNull isNull
    rw [hz, Bool.false_and, if_neg (by simp), if_neg (by simp)]
    cases hb : isBlank v with
    | true =>
      refine ⟨{ hush s with doc := d1 }, fin_some ?_, ⟨rfl, rfl, rfl, rfl, rfl, rfl, rfl⟩, rfl, rfl, rfl, rfl, rfl, rfl⟩
      rw [bind_some h.hush.rebuilt, bind_some e1]; rfl
    | false =>
      refine ⟨{ hush s with doc := d1, framesetOk := false }, fin_some ?_, ⟨rfl, rfl, rfl, rfl, rfl, rfl, rfl⟩, rfl, rfl, rfl, rfl, rfl, rfl⟩
      rw [bind_some h.hush.rebuilt, bind_some e1]; rfl
  obtain ⟨s', hs, st, hm, ho, hf, ha, hd, hq⟩ := hr
  refine ⟨s', s.doc.nextId, read_done h.isPlain hs ⟨st.queue.trans h.queue, hq⟩, ⟨st, hm, ho, hf, by rw [ha]; exact Trim.refl _, by rw [hd]; exact hA1.grow⟩, ?_⟩
  rw [hd]
  exact leaf_text hA1

/-- a comment, where the insertion mode just inserts it -/
theorem note {env : Env} {s : St} {above : List Str} (h : Inside s above) {v : Str}
    (hm : byMode env s.mode (.comment v) = fin (insertComment v)) : Result env s (.comment v) := by
  obtain ⟨d1, e1, hA1⟩ := insertComment_new h.hush v
  refine ⟨{ hush s with doc := d1 }, s.doc.nextId, ?_, ?_, leaf_comment hA1⟩
  · refine read_done h.isPlain ?_ ⟨h.queue, rfl⟩
    rw [hm]
    exact fin_some e1
  · exact ⟨⟨rfl, rfl, rfl, rfl, rfl, rfl, rfl⟩, rfl, rfl, rfl, Trim.refl _, hA1.grow⟩

/-- an element without content, where the handler inserts it and no more -/
theorem empty {env : Env} {s s' : St} {above : List Str} (h : Inside s above) {n : Str} {as : Attrs} (hv : n ∈ voids) {d1 : Doc}
    (hm : byMode env s.mode (.startTag n false as) (hush s) = some (.done, s')) (hA : Added s.doc d1 (current s) (elementData n htmlNs as))
    (hs : ∃ b, s' = { hush s with doc := d1, framesetOk := b }) : Result env s (.elem n as []) := by
  obtain ⟨b, rfl⟩ := hs
  refine ⟨{ hush s with doc := d1, framesetOk := b }, s.doc.nextId, ?_, ⟨⟨rfl, rfl, rfl, rfl, rfl, rfl, rfl⟩, rfl, rfl, rfl, Trim.refl _, hA.grow⟩, childless hA⟩
  unfold Tree.tokens
  rw [if_pos hv]
  exact read_done h.isPlain hm ⟨h.queue, (contentOf_none (voids_texts hv)).symm⟩

end Verif.TreeBuild
