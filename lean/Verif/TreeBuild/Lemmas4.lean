import Verif.TreeBuild.Lemmas3

/-!
# The adoption agency
-/
namespace Verif.TreeBuild
open Verif Verif.Dom

theorem filter_eraseIdx {α : Type} {p : α → Bool} {x : α} (hp : p x = false) : ∀ {l : List α} {k : Nat}, l[k]? = some x →
    (l.eraseIdx k).filter p = l.filter p
  | [], _, h => by simp at h
  | y :: r, 0, h => by
    simp only [List.getElem?_cons_zero, Option.some.injEq] at h
    subst h
    rw [List.eraseIdx_cons_zero, List.filter_cons, hp]; rfl
  | y :: r, k + 1, h => by
    rw [List.getElem?_cons_succ] at h
    rw [List.eraseIdx_cons_succ, List.filter_cons, List.filter_cons, filter_eraseIdx hp h]

theorem filter_set {α : Type} {p : α → Bool} {x y : α} (hp : p x = false) (hq : p y = false) : ∀ {l : List α} {k : Nat},
    l[k]? = some x → (l.set k y).filter p = l.filter p
  | [], _, h => by simp at h
  | z :: r, 0, h => by
    simp only [List.getElem?_cons_zero, Option.some.injEq] at h
    subst h
    rw [List.set_cons_zero, List.filter_cons, List.filter_cons, hp, hq]; rfl
  | z :: r, k + 1, h => by
    rw [List.getElem?_cons_succ] at h
    rw [List.set_cons_succ, List.filter_cons, List.filter_cons, filter_set hp hq h]

theorem filter_insertIdx {α : Type} {p : α → Bool} {y : α} (hq : p y = false) : ∀ (l : List α) (k : Nat),
    (l.insertIdx k y).filter p = l.filter p
  | l, 0 => by rw [List.insertIdx_zero, List.filter_cons, hq]; rfl
  | [], k + 1 => rfl
  | z :: r, k + 1 => by
    rw [List.insertIdx_succ_cons, List.filter_cons, List.filter_cons, filter_insertIdx hq r k]

theorem mem_insertIdx' {α : Type} {x y : α} : ∀ {l : List α} {k : Nat}, x ∈ l.insertIdx k y → x = y ∨ x ∈ l
  | l, 0, h => by rw [List.insertIdx_zero] at h; exact List.mem_cons.1 h
  | [], k + 1, h => Or.inr h
  | z :: r, k + 1, h => by
    rw [List.insertIdx_succ_cons] at h
    rcases List.mem_cons.1 h with rfl | h
    · exact Or.inr (by simp)
    · rcases mem_insertIdx' h with h | h
      · exact Or.inl h
      · exact Or.inr (List.mem_cons_of_mem _ h)

/-! ## Replacing the stack -/

theorem good_replace {s : St} (h : Good s) {l : List Nat}
    (hm : ∀ x ∈ l, x ∈ s.opened ∨ live s.doc x ∧ quiet (tag s.doc x))
    (hf : l.filter (anchor s.doc) = s.opened.filter (anchor s.doc)) : Good { s with opened := l } := by
  refine ⟨ok_opened h.ok ?_, fun hfr => ?_⟩
  · intro x hx
    rcases hm x hx with hx | hx
    · exact h.ok.base.opened x hx
    · exact hx.1
  · have hb := h.bare hfr
    refine ⟨?_, ?_, ?_⟩
    · intro x hx
      rcases hm x hx with hx | hx
      · exact hb.none x hx
      · exact fun _ => hx.2.1
    · intro x hx
      rcases hm x hx with hx | hx
      · exact hb.body x hx
      · intro h'
        change TreeBuild.is (tag s.doc x) "body" = true at h'
        rw [hx.2.2] at h'; cases h'
    · intro y hy
      change (l.filter (anchor s.doc)).getLast? = some y at hy
      rw [hf] at hy
      exact hb.base y hy

theorem soft_opened (s : St) (l : List Nat) : Soft s { s with opened := l } := ⟨Ext.refl _, rfl, rfl, rfl, rfl, rfl, id⟩

theorem removeOpen_ok {s : St} (h : Good s) {n : Nat} (hn : anchor s.doc n = false) :
    ∃ s', removeOpen n s = some ((), s') ∧ Good s' ∧ Mild s s' := by
  refine ⟨_, rfl, good_replace h (fun x hx => .inl (List.mem_filter.1 hx).1) ?_,
    ⟨soft_opened s _, depth_sublist _ List.filter_sublist⟩⟩
  rw [List.filter_filter]
  refine List.filter_congr fun x _ => ?_
  cases ha : anchor s.doc x with
  | false => rfl
  | true =>
    have : x ≠ n := by rintro rfl; rw [hn] at ha; cases ha
    simp [this]

theorem anchor_tag {d : Doc} {i : Nat} (h : oneOf (tag d i) ["html", "body"] = false) : anchor d i = false := by
  unfold anchor; rw [h, Bool.and_false]

theorem anchor_fmt {d : Doc} {i : Nat} (h : fmt (tag d i)) : anchor d i = false :=
  anchor_tag (oneOf_elim (fun n => oneOf n ["html", "body"] = false) (by decide) h)

theorem anchor_plain {d : Doc} {i : Nat} (h : isSpecial d i = false) : anchor d i = false := by
  cases ha : anchor d i with
  | false => rfl
  | true =>
    unfold anchor at ha
    rw [Bool.and_eq_true] at ha
    have hs : oneOf (tag d i) specialHtml = true := oneOf_elim (fun n => oneOf n specialHtml = true) (by decide) ha.2
    unfold isHtml at ha
    rw [decide_eq_true_eq] at ha
    unfold isSpecial at h
    rw [ha.1] at h
    simp only [if_true] at h
    rw [hs] at h; cases h

theorem fmt_plain {d : Doc} {i : Nat} (h : fmt (tag d i)) : isSpecial d i = false := by
  have h1 : oneOf (tag d i) specialHtml = false := oneOf_elim (fun n => oneOf n specialHtml = false) (by decide) h
  have h2 : oneOf (tag d i) specialMath = false := oneOf_elim (fun n => oneOf n specialMath = false) (by decide) h
  have h3 : oneOf (tag d i) specialSvg = false := oneOf_elim (fun n => oneOf n specialSvg = false) (by decide) h
  unfold isSpecial
  split
  · split
    · exact h1
    · split
      · exact h2
      · split
        · exact h3
        · rfl
  · exact h1

theorem special_ext {d d' : Doc} (he : Ext d d') {x : Nat} (hx : live d x) : isSpecial d' x = isSpecial d x := by
  unfold isSpecial; rw [(he x hx).2.1, (he x hx).2.2]

/-! ## The inner loop -/

theorem mem_openVec {s : St} {x : Nat} : x ∈ openVec s ↔ x ∈ s.opened := List.mem_reverse

theorem good_vec {s : St} (h : Good s) {v : List Nat}
    (hm : ∀ x ∈ v, x ∈ openVec s ∨ live s.doc x ∧ quiet (tag s.doc x))
    (hf : v.filter (anchor s.doc) = (openVec s).filter (anchor s.doc)) : Good { s with opened := v.reverse } := by
  refine good_replace h ?_ ?_
  · intro x hx
    rcases hm x (List.mem_reverse.1 hx) with hx | hx
    · exact .inl (mem_openVec.1 hx)
    · exact .inr hx
  · unfold openVec at hf
    rw [List.filter_reverse] at hf
    rw [List.filter_reverse, hf, List.reverse_reverse]

theorem mem_activeVec {s : St} {e : Option Nat} : e ∈ activeVec s ↔ e ∈ s.active := List.mem_reverse

theorem activeIndex_mem {l : List (Option Nat)} {n k : Nat} (h : activeIndex l n = some k) : some n ∈ l := by
  unfold activeIndex at h
  obtain ⟨hk, h1, _⟩ := List.findIdx?_eq_some_iff_getElem.1 h
  rw [decide_eq_true_eq] at h1
  rw [← h1]; exact List.getElem_mem hk

/-- what the inner loop starts from: below `idx` the stack has the formatting element, and above that nothing special -/
structure Between (d : Doc) (v : List Nat) (fe idx : Nat) : Prop where
  le : idx ≤ v.length
  at_ : ∃ pos, pos < idx ∧ v[pos]? = some fe ∧ ∀ j x, pos < j → j < idx → v[j]? = some x → isSpecial d x = false

theorem Between.node {d : Doc} {v : List Nat} {fe idx x : Nat} (h : Between d v fe (idx + 1)) (hx : v[idx]? = some x) (hne : x ≠ fe) :
    isSpecial d x = false ∧ ∃ pos, pos < idx ∧ v[pos]? = some fe ∧ ∀ j x, pos < j → j < idx → v[j]? = some x → isSpecial d x = false := by
  obtain ⟨pos, h1, h2, h3⟩ := h.at_
  have hp : pos ≠ idx := by rintro rfl; rw [h2] at hx; cases hx; exact hne rfl
  exact ⟨h3 idx x (by omega) (by omega) hx, pos, by omega, h2, fun j y hj hj' => h3 j y hj (by omega)⟩

theorem innerLoop_ok (fe block : Nat) : ∀ (idx count last : Nat) (bm : Bookmark) {s : St}, Good s → live s.doc last →
    Between s.doc (openVec s) fe idx →
    ∃ r s', innerLoop fe block idx count last bm s = some (r, s') ∧ Good s' ∧ Soft s s' ∧ live s'.doc r.1
  | 0, count, last, bm, s, hs, hl, _ => ⟨(last, bm), s, rfl, hs, Soft.refl s, hl⟩
  | idx + 1, count, last, bm, s, hs, hl, hB => by
    have hlt : idx < (openVec s).length := hB.le
    obtain ⟨node, hnode⟩ : ∃ x, (openVec s)[idx]? = some x := ⟨_, List.getElem?_eq_getElem hlt⟩
    have hmem : node ∈ s.opened := mem_openVec.1 (List.mem_of_getElem? hnode)
    have hlive : live s.doc node := hs.ok.base.opened node hmem
    unfold innerLoop
    rw [hnode]
    simp only
    split
    · exact ⟨_, s, rfl, hs, Soft.refl s, hl⟩
    · next hne =>
      obtain ⟨hsp, pos, hp1, hp2, hp3⟩ := hB.node hnode hne
      -- erasing the node
      have herase : ∀ {s1 : St}, Good s1 → Soft s s1 → s1.doc = s.doc → openVec s1 = openVec s →
          ∃ r s', innerLoop fe block idx (count + 1) last bm { s1 with opened := ((openVec s).eraseIdx idx).reverse } = some (r, s') ∧
            Good s' ∧ Soft s s' ∧ live s'.doc r.1 := by
        intro s1 hg hsoft hdoc hopen
        have hg' : Good { s1 with opened := ((openVec s).eraseIdx idx).reverse } := by
          refine good_vec hg (fun x hx => .inl ?_) ?_
          · rw [hopen]; exact List.mem_of_mem_eraseIdx hx
          · rw [hdoc, hopen]; exact filter_eraseIdx (anchor_plain hsp) hnode
        have hv : openVec { s1 with opened := ((openVec s).eraseIdx idx).reverse } = (openVec s).eraseIdx idx := by
          unfold openVec; exact List.reverse_reverse _
        obtain ⟨r, s', h1, h2, h3, h4⟩ := innerLoop_ok fe block idx (count + 1) last bm hg' (hdoc.symm ▸ hl) (by
          rw [hv]
          refine ⟨?_, pos, hp1, ?_, ?_⟩
          · rw [List.length_eraseIdx_of_lt hlt]; omega
          · rw [List.getElem?_eraseIdx_of_lt hp1]; exact hp2
          · intro j x hj hj' hx
            rw [List.getElem?_eraseIdx_of_lt hj'] at hx
            show isSpecial s1.doc x = false
            rw [hdoc]; exact hp3 j x hj hj' hx)
        exact ⟨r, s', h1, h2, hsoft.trans ((soft_opened s1 _).trans h3), h4⟩
      split
      · -- too many rounds
        rw [show ∀ (f : St → St) (k : Unit → M (Nat × Bookmark)), ((upd f) >>= k) s = k () (f s) from fun _ _ => rfl]
        rw [show ∀ (s1 : St) (k : Unit → M (Nat × Bookmark)), ((setOpenVec ((openVec s).eraseIdx idx)) >>= k) s1 =
          k () { s1 with opened := ((openVec s).eraseIdx idx).reverse } from fun _ _ => rfl]
        split
        · next k hk =>
          refine herase (s1 := { s with active := ((activeVec s).eraseIdx k).reverse }) ?_ (mild_active s _).toSoft rfl rfl
          refine good_active hs fun x hx => hs.ok.active x ?_
          exact mem_activeVec.1 (List.mem_of_mem_eraseIdx (List.mem_reverse.1 hx))
        · exact herase hs (Soft.refl s) rfl rfl
      · split
        · rw [show ∀ (s1 : St) (k : Unit → M (Nat × Bookmark)), ((setOpenVec ((openVec s).eraseIdx idx)) >>= k) s1 =
            k () { s1 with opened := ((openVec s).eraseIdx idx).reverse } from fun _ _ => rfl]
          exact herase hs (Soft.refl s) rfl rfl
        · next k hk =>
          have hact := hs.ok.active node (mem_activeVec.1 (activeIndex_mem hk))
          obtain ⟨d1, new, h1, hM, ht, _⟩ := made_clone hs.ok.base.fine hlive
          have hfmt : fmt (tag d1 new) := ht ▸ hact.2
          have hg1 : Good { s with doc := d1 } := good_doc hs hM.fine hM.ext
          have hg2 : Good { s with doc := d1, active := ((activeVec s).set k (some new)).reverse } := by
            refine good_active hg1 fun x hx => ?_
            rcases List.mem_or_eq_of_mem_set (List.mem_reverse.1 hx) with hx | hx
            · exact hg1.ok.active x (mem_activeVec.1 hx)
            · cases hx; exact ⟨hM.here, hfmt⟩
          have hg3 : Good { s with doc := d1, active := ((activeVec s).set k (some new)).reverse, opened := ((openVec s).set idx new).reverse } := by
            refine good_vec hg2 (fun x hx => ?_) ?_
            · rcases List.mem_or_eq_of_mem_set hx with hx | rfl
              · exact .inl hx
              · exact .inr ⟨hM.here, quiet_fmt hfmt⟩
            · refine filter_set (x := node) ?_ (anchor_fmt hfmt) hnode
              show anchor d1 node = false
              rw [anchor_ext hM.ext hlive]; exact anchor_plain hsp
          have hl1 := (hM.ext last hl).1
          obtain ⟨d2, h2, hf2, he2, hloose, _⟩ := fine_detach hM.fine last
          obtain ⟨d3, h3, hf3, he3, _⟩ := fine_attach hf2 none (he2 last hl1).1 (he2 new hM.here).1 hloose
          have hg5 := good_doc (good_doc hg3 hf2 he2) (d' := d3) hf3 he3
          have hext : Ext s.doc d3 := (hM.ext.trans he2).trans he3
          have hv : openVec { s with doc := d3, active := ((activeVec s).set k (some new)).reverse, opened := ((openVec s).set idx new).reverse } =
              (openVec s).set idx new := by unfold openVec; exact List.reverse_reverse _
          obtain ⟨r, s', h4, h5, h6, h7⟩ := innerLoop_ok fe block idx (count + 1) new (if last = block then .after new else bm) hg5
            (he3 new (he2 new hM.here).1).1 (by
              refine ⟨?_, pos, hp1, ?_, ?_⟩
              · rw [hv, List.length_set]; omega
              · rw [hv, List.getElem?_set_ne (by omega)]; exact hp2
              · intro j x hj hj' hx
                rw [hv, List.getElem?_set_ne (by omega)] at hx
                have hxl : live s.doc x := hs.ok.base.opened x (mem_openVec.1 (List.mem_of_getElem? hx))
                show isSpecial d3 x = false
                rw [special_ext hext hxl]; exact hp3 j x hj hj' hx)
          refine ⟨r, s', ?_, h5, ⟨hext.trans h6.ext, h6.mode, h6.original, h6.queue, h6.finished, h6.context, h6.frameset⟩, h7⟩
          rw [bind_some (dom_new h1)]
          rw [show ∀ (s1 : St) (l : List (Option Nat)) (f : Unit → M (Nat × Bookmark)), ((setActiveVec l) >>= f) s1 =
            f () { s1 with active := l.reverse } from fun _ _ _ => rfl]
          rw [show ∀ (s1 : St) (l : List Nat) (f : Unit → M (Nat × Bookmark)), ((setOpenVec l) >>= f) s1 =
            f () { s1 with opened := l.reverse } from fun _ _ _ => rfl]
          rw [bind_some (dom_eq (s := { s with doc := d1, active := ((activeVec s).set k (some new)).reverse, opened := ((openVec s).set idx new).reverse }) h2)]
          rw [bind_some (dom_eq (s := { s with doc := d2, active := ((activeVec s).set k (some new)).reverse, opened := ((openVec s).set idx new).reverse }) h3)]
          exact h4

/-! ## The rest of it -/

theorem moveAll_ok {p : Nat} : ∀ (cs : List Nat) {s : St}, Fine s.doc → live s.doc p → Dom.parent s.doc p = none →
    (∀ c ∈ cs, live s.doc c ∧ c ≠ p) →
    ∃ d', moveAll p cs s = some ((), { s with doc := d' }) ∧ Fine d' ∧ Ext s.doc d' ∧ Dom.parent d' p = none
  | [], s, hf, _, hl, _ => ⟨s.doc, rfl, hf, Ext.refl _, hl⟩
  | c :: r, s, hf, hp, hl, hc => by
    obtain ⟨h1, h2⟩ := hc c (by simp)
    obtain ⟨d1, h3, h4, h5, h6⟩ := fine_relocate hf h1 hp
    obtain ⟨d2, h7, h8, h9, h10⟩ := moveAll_ok r (s := { s with doc := d1 }) h4 (h5 p hp).1 ((h6 p h2.symm).trans hl)
      fun x hx => ⟨(h5 x (hc x (List.mem_cons_of_mem _ hx)).1).1, (hc x (List.mem_cons_of_mem _ hx)).2⟩
    refine ⟨d2, ?_, h8, h5.trans h9, h10⟩
    unfold moveAll
    rw [bind_some (dom_eq h3)]
    exact h7

theorem placeActive_ok {s : St} (hs : Good s) {fe new : Nat} (hn : live s.doc new) (hf : fmt (tag s.doc new)) (bm : Bookmark) :
    ∃ l, placeActive fe new bm s = some ((), { s with active := l }) ∧ Good { s with active := l } := by
  cases bm with
  | replace n =>
    unfold placeActive
    simp only [upd]
    split
    · refine ⟨_, rfl, good_active hs fun x hx => ?_⟩
      rcases List.mem_or_eq_of_mem_set (List.mem_reverse.1 hx) with hx | hx
      · exact hs.ok.active x (mem_activeVec.1 hx)
      · cases hx; exact ⟨hn, hf⟩
    · exact ⟨s.active, rfl, hs⟩
  | after n =>
    unfold placeActive
    simp only [upd]
    split
    · next k hk =>
      refine ⟨_, rfl, good_active hs fun x hx => ?_⟩
      have : some x ∈ (activeVec s).insertIdx (k + 1) (some new) := by
        have hx' := List.mem_reverse.1 hx
        revert hx'
        split
        · exact fun h => List.mem_of_mem_eraseIdx h
        · exact id
      rcases mem_insertIdx' this with hx | hx
      · cases hx; exact ⟨hn, hf⟩
      · exact hs.ok.active x (mem_activeVec.1 hx)
    · exact ⟨s.active, rfl, hs⟩

theorem placeOpen_ok {s : St} (hs : Good s) {fe block new : Nat} (hfe : anchor s.doc fe = false) (hn : live s.doc new)
    (hf : fmt (tag s.doc new)) : ∃ s', placeOpen fe block new s = some ((), s') ∧ Good s' ∧ Soft s s' := by
  refine ⟨_, rfl, ?_, soft_opened s _⟩
  have hfil : ((openVec s).filter fun x => decide (x ≠ fe)).filter (anchor s.doc) = (openVec s).filter (anchor s.doc) := by
    rw [List.filter_filter]
    refine List.filter_congr fun x _ => ?_
    cases ha : anchor s.doc x with
    | false => rfl
    | true =>
      have : x ≠ fe := by rintro rfl; rw [hfe] at ha; cases ha
      simp [this]
  simp only
  refine good_vec hs ?_ ?_
  · intro x
    split
    · intro hx
      rcases mem_insertIdx' hx with rfl | hx
      · exact .inr ⟨hn, quiet_fmt hf⟩
      · exact .inl (List.mem_filter.1 hx).1
    · exact fun hx => .inl (List.mem_filter.1 hx).1
  · split
    · rw [filter_insertIdx (anchor_fmt hf), hfil]
    · exact hfil

theorem adoptBlock_ok {s : St} (hs : Good s) {fe anc bi block : Nat} {name namesp : Str} (as : Attrs) (hfe : live s.doc fe)
    (hfmt : fmt (tag s.doc fe)) (hname : fmt name) (hanc : live s.doc anc) (hblock : live s.doc block)
    (hB : Between s.doc (openVec s) fe bi) :
    ∃ s', adoptBlock fe name namesp as anc bi block s = some ((), s') ∧ Good s' ∧ Soft s s' := by
  obtain ⟨r, s1, h1, g1, so1, hl1⟩ := innerLoop_ok fe block bi 0 block (.replace fe) hs hblock hB
  obtain ⟨d2, h2, f2, e2, loose2, _⟩ := fine_detach g1.ok.base.fine r.1
  have g2 := good_doc g1 f2 e2
  obtain ⟨d3, h3, f3, e3⟩ := insertHere_ok (s := { s1 with doc := d2 }) g2.ok.base (o := some anc) (n := r.1)
    (by intro x hx; cases hx; exact (e2 anc (so1.ext anc hanc).1).1) (e2 r.1 hl1).1 loose2
  have g3 := good_doc g2 (d' := d3) f3 e3
  obtain ⟨d4, new, h4, hM, ht, _, _⟩ := made_element (d := d3) f3 name namesp as
  have g4 := good_doc g3 (d' := d4) hM.fine hM.ext
  have hext4 : Ext s.doc d4 := ((so1.ext.trans e2).trans e3).trans hM.ext
  have hkids : ∀ c ∈ children d4 block, live d4 c ∧ c ≠ new := by
    intro c hc
    have hp := edge_parent (agree_reach hM.fine.reach).2 hc
    refine ⟨live_of_parent hp, ?_⟩
    rintro rfl
    rw [hM.loose] at hp; cases hp
  obtain ⟨d5, h5, f5, e5, loose5⟩ := moveAll_ok (children d4 block) (s := { s1 with doc := d4 }) hM.fine hM.here hM.loose hkids
  have g5 := good_doc g4 (d' := d5) f5 e5
  have hext5 : Ext s.doc d5 := hext4.trans e5
  obtain ⟨d6, h6, f6, e6, _⟩ := fine_attach f5 none (e5 new hM.here).1 (hext5 block hblock).1 loose5
  have g6 := good_doc g5 (d' := d6) f6 e6
  have hext6 : Ext s.doc d6 := hext5.trans e6
  have hnew : live d6 new ∧ tag d6 new = name := by
    obtain ⟨a1, a2, _⟩ := e5 new hM.here
    obtain ⟨b1, b2, _⟩ := e6 new a1
    exact ⟨b1, b2.trans (a2.trans ht)⟩
  have hnf : fmt (tag d6 new) := hnew.2 ▸ hname
  obtain ⟨l, h7, g7⟩ := placeActive_ok (s := { s1 with doc := d6 }) g6 (fe := fe) hnew.1 hnf r.2
  obtain ⟨s8, h8, g8, so8⟩ := placeOpen_ok g7 (fe := fe) (block := block) (by
    refine anchor_fmt ?_
    show fmt (tag d6 fe)
    rw [(hext6 fe hfe).2.1]; exact hfmt) hnew.1 hnf
  refine ⟨s8, ?_, g8, ⟨hext6.trans so8.ext, so8.mode.trans so1.mode, so8.original.trans so1.original, so8.queue.trans so1.queue,
    so8.finished.trans so1.finished, so8.context.trans so1.context, fun h => so1.frameset (so8.frameset h)⟩⟩
  unfold adoptBlock
  rw [bind_some h1, bind_some (dom_eq h2), bind_some h3, bind_some (dom_new (s := { s1 with doc := d3 }) h4)]
  rw [show ∀ (s1 : St) (g : St → List Nat) (f : List Nat → M Unit), ((ask g) >>= f) s1 = f (g s1) s1 from fun _ _ _ => rfl]
  rw [bind_some h5, bind_some (dom_eq (s := { s1 with doc := d5 }) h6), bind_some h7]
  exact h8

theorem formatEntry_mem (d : Doc) (t : Str) : ∀ {l : List (Option Nat)} {x : Nat × Nat}, formatEntry d t l = some x → some x.2 ∈ l
  | [], _, h => by cases h
  | some i :: r, x, h => by
    unfold formatEntry at h
    split at h
    · cases h; simp
    · obtain ⟨y, hy, rfl⟩ := Option.map_eq_some_iff.1 h
      exact List.mem_cons_of_mem _ (formatEntry_mem d t (x := y) hy)
  | none :: r, x, h => by
    unfold formatEntry at h
    obtain ⟨y, hy, rfl⟩ := Option.map_eq_some_iff.1 h
    exact List.mem_cons_of_mem _ (formatEntry_mem d t (x := y) hy)

theorem lastIndex_at {l : List Nat} {n k : Nat} (h : lastIndex l n = some k) : l[k]? = some n := by
  unfold lastIndex at h
  obtain ⟨j, hj, rfl⟩ := Option.map_eq_some_iff.1 h
  obtain ⟨hk, h1, _⟩ := List.findIdx?_eq_some_iff_getElem.1 hj
  rw [decide_eq_true_eq] at h1
  rw [List.length_reverse] at hk
  rw [List.getElem_reverse] at h1
  rw [← h1, List.getElem?_eq_getElem]

theorem furthest_at {s : St} {pos : Nat} {x : Nat × Nat} (h : furthestBlock s pos = some x) :
    pos ≤ x.1 ∧ (openVec s)[x.1]? = some x.2 ∧ isSpecial s.doc x.2 = true ∧
      ∀ j y, pos ≤ j → j < x.1 → (openVec s)[j]? = some y → isSpecial s.doc y = false := by
  unfold furthestBlock at h
  obtain ⟨k, hk, h2⟩ := Option.bind_eq_some_iff.1 h
  obtain ⟨i, hi, rfl⟩ := Option.map_eq_some_iff.1 h2
  obtain ⟨hlt, h3, h4⟩ := List.findIdx?_eq_some_iff_getElem.1 hk
  refine ⟨by simp, hi, ?_, ?_⟩
  · rw [List.getElem_drop] at h3
    have := List.getElem?_eq_some_iff.1 hi
    obtain ⟨_, hi'⟩ := this
    rw [hi'] at h3; exact h3
  · intro j y hj hj' hy
    have hjl : j - pos < k := by simp only at hj'; omega
    have := h4 (j - pos) hjl
    rw [List.getElem_drop] at this
    obtain ⟨_, hy'⟩ := List.getElem?_eq_some_iff.1 hy
    have e : pos + (j - pos) = j := by omega
    simp only [e] at this
    rw [hy'] at this
    simpa using this

theorem outerLoop_ok (subject : Str) : ∀ (k : Nat) {s : St}, Good s →
    ∃ s', outerLoop subject k s = some ((), s') ∧ Good s' ∧ Soft s s'
  | 0, s, hs => ⟨s, rfl, hs, Soft.refl s⟩
  | k + 1, s, hs => by
    have herase : ∀ {s1 : St} (fi : Nat), Good s1 → s1.active = s.active →
        Good { s1 with active := ((activeVec s).eraseIdx fi).reverse } := by
      intro s1 fi hg ha
      refine good_active hg fun x hx => hg.ok.active x ?_
      rw [ha]
      exact mem_activeVec.1 (List.mem_of_mem_eraseIdx (List.mem_reverse.1 hx))
    unfold outerLoop
    cases hfo : findFormat s subject with
    | none =>
      obtain ⟨_, s', h1, h2, h3⟩ := does_otherEndTag subject s hs
      exact ⟨s', h1, h2, h3.toSoft⟩
    | some x =>
      obtain ⟨fi, fe⟩ := x
      simp only
      have hact : some fe ∈ s.active := by
        unfold findFormat at hfo
        obtain ⟨y, hy, he⟩ := Option.map_eq_some_iff.1 hfo
        cases he
        exact formatEntry_mem _ _ hy
      obtain ⟨hfe, hfmt⟩ := hs.ok.active fe hact
      cases hpos : lastIndex (openVec s) fe with
      | none => exact ⟨_, rfl, herase fi hs rfl, (mild_active s _).toSoft⟩
      | some pos =>
        have hat := lastIndex_at hpos
        simp only
        split
        · exact ⟨s, rfl, hs, Soft.refl s⟩
        · cases hfb : furthestBlock s pos with
          | none =>
            have hsuf : ((openVec s).take pos).reverse <:+ s.opened := by
              have := List.take_prefix pos (openVec s)
              have h2 := List.reverse_suffix.2 this
              unfold openVec at h2
              rw [List.reverse_reverse] at h2
              exact h2
            exact ⟨_, rfl, herase fi (good_suffix hs hsuf) rfl, (soft_opened s _).trans (mild_active _ _).toSoft⟩
          | some y =>
            obtain ⟨bi, b⟩ := y
            obtain ⟨hle, hb1, hb2, hb3⟩ := furthest_at hfb
            simp only at hle hb1 hb2 hb3 ⊢
            split
            · exact ⟨s, rfl, hs, Soft.refl s⟩
            · next hp0 =>
              have hplt : pos < (openVec s).length := by
                obtain ⟨h, _⟩ := List.getElem?_eq_some_iff.1 hat; exact h
              obtain ⟨anc, hanc⟩ : ∃ a, (openVec s)[pos - 1]? = some a := ⟨_, List.getElem?_eq_getElem (by omega)⟩
              rw [hanc]
              simp only
              have hbl : live s.doc b := hs.ok.base.opened b (mem_openVec.1 (List.mem_of_getElem? hb1))
              have hal : live s.doc anc := hs.ok.base.opened anc (mem_openVec.1 (List.mem_of_getElem? hanc))
              have hne : pos ≠ bi := by
                rintro rfl
                rw [hat] at hb1; cases hb1
                rw [fmt_plain hfmt] at hb2; cases hb2
              have hblt : bi < (openVec s).length := by
                obtain ⟨h, _⟩ := List.getElem?_eq_some_iff.1 hb1; exact h
              obtain ⟨s1, h1, g1, so1⟩ := adoptBlock_ok (namesp := (ns s.doc fe).getD htmlNs) hs ((attrs s.doc fe).getD []) hfe hfmt hfmt hal hbl
                ⟨Nat.le_of_lt hblt, pos, by omega, hat, fun j x hj hj' => hb3 j x (by omega) hj'⟩
              obtain ⟨s2, h2, g2, so2⟩ := outerLoop_ok subject k g1
              exact ⟨s2, by rw [bind_some h1]; exact h2, g2, so1.trans so2⟩

theorem does_adoption (subject : Str) : Does Soft (adoption subject) := by
  intro s hs
  unfold adoption
  split
  · exact does_pop.soft s hs
  · obtain ⟨s', h⟩ := outerLoop_ok subject 8 hs
    exact ⟨(), s', h⟩

end Verif.TreeBuild
