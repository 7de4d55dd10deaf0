import Verif.TreeBuild.Trip7

/-!
# C106: tables
-/
namespace Verif.TreeBuild
open Verif Verif.Dom

/-- a part of a table, or a table, has been opened -/
def partOpen (s : St) (d1 : Doc) (m : Mode) (marker b : Bool) : St :=
  { opening (hush s) d1 with mode := m, active := if marker then none :: s.active else s.active, framesetOk := b }

/-- and it is closed -/
def partClose (s s2 : St) (marker : Bool) : St :=
  { hush s2 with opened := s.opened, mode := s.mode, active := if marker then s.active else s2.active }

theorem part {env : Env} {s : St} {above : List Str} (h : Inside s above) {n : Str} {as : Attrs} {kids : List Tree} {m : Mode}
    {marker b : Bool} (hv : n ∉ voids) (ht : n ≠ "template".toList) (hx : n ∉ texts) {d1 : Doc}
    (hA : Added s.doc d1 (current s) (elementData n htmlNs as))
    (start : byMode env s.mode (.startTag n false as) (hush s) = some (.done, partOpen s d1 m marker b))
    (ih : Inside (partOpen s d1 m marker b) (n :: above) → NoText (partOpen s d1 m marker b) → Results env (partOpen s d1 m marker b) kids)
    (close : ∀ s2, Inside s2 (n :: above) → s2.mode = m → Top (hush s2) s.doc.nextId s.opened n →
      (marker = true → afterMarker s2.active = s.active) → resetMode (closing (hush s2) s.opened) s.opened = resetMode s s.opened →
      Reads env s2 [.endTag n] (partClose s s2 marker)) : Result env s (.elem n as kids) := by
  have hR : Inside (partOpen s d1 m marker b) (n :: above) := by
    refine h.push (s' := partOpen s d1 m marker b) ⟨rfl, rfl, rfl, rfl, rfl, rfl, rfl⟩ hA rfl ?_ (fun _ => rfl) ht
    cases marker with
    | true => exact h.act.trans (List.sublist_cons_self _ _)
    | false => exact h.act.trans (List.sublist_cons_self _ _)
  have hN : NoText (partOpen s d1 m marker b) := new_noText (s := s) (s1 := partOpen s d1 m marker b) hA rfl
  obtain ⟨s2, new, r2, ha, htr⟩ := ih hR hN
  have hR2 := ha.ready hR
  have hop : s2.opened = s.doc.nextId :: s.opened := ha.opened
  have hg : Grow d1 s2.doc s.doc.nextId new := ha.grow
  have hmark : marker = true → afterMarker s2.active = s.active := by
    intro hm
    have := ha.act.marker
    subst hm
    exact this
  have hreset : resetMode (closing (hush s2) s.opened) s.opened = resetMode s s.opened :=
    resetMode_congr (s := s) (s' := closing (hush s2) s.opened) ha.steady.tmodes ha.steady.head h.context (ha.steady.context.trans h.context)
      fun x hx => by
        have h1 := h.lt hx
        show tag s2.doc x = tag s.doc x
        rw [hg.tag (by rw [hA.next]; omega), hA.grow.tag h1]
  have r3 := close s2 hR2 ha.mode (hR2.hush.top hop) hmark hreset
  have st := ha.steady
  refine nest h hv (read_done h.isPlain start ⟨h.queue, (contentOf_none hx).symm⟩) hA r2 hg htr r3
    ⟨st.foster, st.lf, st.queue, st.context, st.tmodes, st.fin, st.head⟩ rfl rfl rfl ha.form ?_
  cases marker with
  | true => exact Trim.refl _
  | false => exact ha.act

theorem clearTo_none {s : St} {e : Nat} {rest : List Nat} {n : Str} (h : Top s e rest n) {l : List String} (hl : oneOf n l = true) :
    clearTo l s = some ((), s) := by
  have : s.opened.dropWhile (fun i => !oneOf (tag s.doc i) l) = s.opened := by
    rw [h.opened, List.dropWhile_cons_of_neg (by rw [h.name, hl]; simp)]
  show some ((), ({ s with opened := s.opened.dropWhile fun i => !oneOf (tag s.doc i) l } : St)) = _
  rw [this]

/-- the current node is of this name -/
theorem Inside.topOf {s : St} {n : Str} {above : List Str} (h : Inside s (n :: above)) : ∃ e rest, Top s e rest n := by
  obtain ⟨x, r, hx⟩ := List.exists_cons_of_ne_nil h.stack
  exact ⟨x, r, h.top hx⟩

theorem Top.isOpen {s : St} {e : Nat} {rest : List Nat} {k : String} (h : Top s e rest k.toList) : hasOpen k s = true := by
  unfold hasOpen
  rw [h.opened]
  have : is k.toList k = true := by unfold is; exact decide_eq_true rfl
  simp [h.name, this]

/-! ## What the handlers do with the tags -/

section
variable (env : Env) (sc : Bool) (as : Attrs) {n : Str}

theorem table_start_caption : byMode env .inTable (.startTag "caption".toList sc as) = fin (do
    clearToTable
    pushMarker
    insert_ "caption".toList as
    setMode .inCaption) := by
  have h1 : is "caption".toList "caption" = true := by decide +kernel
  simp only [byMode, inTable, h1, if_true]

theorem table_start_colgroup : byMode env .inTable (.startTag "colgroup".toList sc as) = fin (do
    clearToTable
    insert_ "colgroup".toList as
    setMode .inColumnGroup) := by
  have h1 : is "colgroup".toList "caption" = false := by decide +kernel
  have h2 : is "colgroup".toList "colgroup" = true := by decide +kernel
  simp only [byMode, inTable, h1, h2, Bool.false_eq_true, if_false, if_true]

theorem table_start_section (h : n ∈ names ["thead", "tbody", "tfoot"]) : byMode env .inTable (.startTag n sc as) = fin (do
    clearToTable
    insert_ n as
    setMode .inTableBody) := by
  have key : ∀ m ∈ names ["thead", "tbody", "tfoot"], is m "caption" = false ∧ is m "colgroup" = false ∧ is m "col" = false ∧
      oneOf m ["tbody", "tfoot", "thead"] = true := by decide +kernel
  obtain ⟨h1, h2, h3, h4⟩ := key n h
  simp only [byMode, inTable, h1, h2, h3, h4, Bool.false_eq_true, if_false, if_true]

theorem table_end : byMode env .inTable (.endTag "table".toList) = ifM (hasOpen "table") (fin closeTable) ignore := by
  have h1 : is "table".toList "table" = true := by decide +kernel
  simp only [byMode, inTable, h1, if_true]

theorem table_end_colgroup : byMode env .inTable (.endTag "colgroup".toList) = ignore := by
  have h1 : is "colgroup".toList "table" = false := by decide +kernel
  have h2 : oneOf "colgroup".toList tableIgnores = true := by decide +kernel
  simp only [byMode, inTable, h1, h2, Bool.false_eq_true, if_false, if_true]

theorem caption_end : byMode env .inCaption (.endTag "caption".toList) = closeCaption false := by
  have h1 : is "caption".toList "caption" = true := by decide +kernel
  simp only [byMode, inCaption, h1, if_true]

theorem columns_col : byMode env .inColumnGroup (.startTag "col".toList sc as) = fin (insertVoid "col".toList as) := by
  have h1 : is "col".toList "html" = false := by decide +kernel
  have h2 : is "col".toList "col" = true := by decide +kernel
  simp only [byMode, inColumnGroup, h1, h2, Bool.false_eq_true, if_false, if_true]

theorem columns_end : byMode env .inColumnGroup (.endTag "colgroup".toList) = closeColgroup := by
  have h1 : is "colgroup".toList "template" = false := by decide +kernel
  have h2 : is "colgroup".toList "colgroup" = true := by decide +kernel
  simp only [byMode, inColumnGroup, h1, h2, Bool.false_eq_true, if_false, if_true]

theorem body_row : byMode env .inTableBody (.startTag "tr".toList sc as) = fin (do
    clearToBody
    insert_ "tr".toList as
    setMode .inRow) := by
  have h1 : is "tr".toList "tr" = true := by decide +kernel
  simp only [byMode, inTableBody, h1, if_true]

theorem body_end (h : n ∈ names ["thead", "tbody", "tfoot"]) : byMode env .inTableBody (.endTag n) =
    ifM (inScope n .table) (fin closeSection) ignore := by
  have key : ∀ m ∈ names ["thead", "tbody", "tfoot"], oneOf m ["tbody", "tfoot", "thead"] = true := by decide +kernel
  have h1 := key n h
  simp only [byMode, inTableBody, h1, if_true]

theorem row_cell (h : n ∈ names ["td", "th"]) : byMode env .inRow (.startTag n sc as) = fin (do
    clearToRow
    insert_ n as
    setMode .inCell
    pushMarker) := by
  have key : ∀ m ∈ names ["td", "th"], oneOf m ["th", "td"] = true := by decide +kernel
  have h1 := key n h
  simp only [byMode, inRow, h1, if_true]

theorem row_end : byMode env .inRow (.endTag "tr".toList) = ifM (inScopeS "tr" .table) (fin closeRow) ignore := by
  have h1 : is "tr".toList "tr" = true := by decide +kernel
  simp only [byMode, inRow, h1, if_true]

theorem cell_end (h : n ∈ names ["td", "th"]) : byMode env .inCell (.endTag n) = ifM (inScope n .table) (fin (do
    implied none false
    popNamed n
    clearMarker
    setMode .inRow)) ignore := by
  have key : ∀ m ∈ names ["td", "th"], oneOf m ["th", "td"] = true := by decide +kernel
  have h1 := key n h
  simp only [byMode, inCell, h1, if_true]

end

/-! ## The table itself -/

theorem flow_table {env : Env} {s : St} {above : List Str} (h : Inside s above) (hA : At s .flow) (as : Attrs) {kids : List Tree}
    (hp : "p".toList ∉ above)
    (ih : ∀ s1, Inside s1 ("table".toList :: above) → At s1 .table → NoText s1 → Results env s1 kids) :
    Result env s (.elem "table".toList as kids) := by
  obtain ⟨d1, e1, hA1⟩ := insert_new h.hush "table".toList as
  refine part h (m := .inTable) (marker := false) (b := false) (by decide +kernel) (by decide +kernel) (by decide +kernel) hA1 ?_
    (fun hR hN => ih _ hR rfl hN) ?_
  · rw [flow_start hA.1 (by decide +kernel), start_table]
    apply fin_some
    have hq : whenM (fun s => !s.quirks) closePInScope (hush s) = some ((), hush s) := by
      cases hs : (!(hush s).quirks) with
      | true => rw [when_yes hs]; exact h.hush.noP hp
      | false => exact when_not hs
    rw [bind_some hq, bind_some e1]
    rfl
  · intro s2 hR2 hm2 top _ hreset
    refine read_done hR2.isPlain ?_ ⟨hR2.queue, rfl⟩
    rw [hm2, table_end, if_yes top.isOpen]
    apply fin_some
    unfold closeTable
    rw [bind_some top.popNamed]
    show some ((), ({ closing (hush s2) s.opened with mode := resetMode (closing (hush s2) s.opened) s.opened } : St)) = _
    rw [hreset, hA.2]
    rfl

/-! ## In the table -/

theorem added_tag {d d1 : Doc} {p : Nat} {n : Str} {as : Attrs} (h : Added d d1 p (elementData n htmlNs as)) : tag d1 d.nextId = n := by
  unfold tag elem; rw [h.new]; rfl

theorem Top.mode {s : St} {e : Nat} {rest : List Nat} {n : Str} (h : Top s e rest n) (m : Mode) : Top { s with mode := m } e rest n :=
  ⟨h.opened, h.name, h.html, h.here, h.fresh⟩

theorem table_caption {env : Env} {s : St} {above : List Str} (h : Inside s ("table".toList :: above)) (hA : At s .table) (as : Attrs)
    {kids : List Tree}
    (ih : ∀ s1, Inside s1 ("caption".toList :: "table".toList :: above) → At s1 .flow → NoText s1 → Results env s1 kids) :
    Result env s (.elem "caption".toList as kids) := by
  obtain ⟨e, rest, top⟩ := h.hush.topOf
  have h0 : Inside { hush s with active := none :: s.active } ("table".toList :: above) :=
    ⟨h.arena, h.foster, h.lf, h.queue, h.context, h.tmodes, h.fin, h.tags, h.here, h.nodup, h.stack, h.act, h.form, h.plain⟩
  obtain ⟨d1, e1, hA1⟩ := insert_new h0 "caption".toList as
  refine part h (m := .inCaption) (marker := true) (b := s.framesetOk) (by decide +kernel) (by decide +kernel) (by decide +kernel) hA1 ?_
    (fun hR hN => ih _ hR ⟨Or.inr (Or.inr rfl), ?_⟩ hN) ?_
  · rw [show s.mode = .inTable from hA, table_start_caption]
    apply fin_some
    rw [show clearToTable = clearTo ["table", "template", "html"] from rfl, bind_some (clearTo_none top (by decide +kernel))]
    rw [bind_some (a := ()) (s' := { hush s with active := none :: s.active }) rfl, bind_some e1]
    rfl
  · obtain ⟨x, r, hx⟩ := List.exists_cons_of_ne_nil h.stack
    show resetMode _ (s.doc.nextId :: s.opened) = .inCaption
    rw [hx]
    unfold resetMode
    have : modeFor (partOpen s d1 .inCaption true s.framesetOk) false s.doc.nextId (x :: r) = some .inCaption := by
      unfold modeFor
      simp only [show (partOpen s d1 .inCaption true s.framesetOk).doc = d1 from rfl,
        show tag d1 s.doc.nextId = _ from added_tag hA1]
      rfl
    rw [this]
  · intro s2 hR2 hm2 top hmark _
    refine read_done hR2.isPlain ?_ ⟨hR2.queue, rfl⟩
    rw [hm2, caption_end]
    unfold closeCaption
    rw [if_yes top.isOpen, bind_some (top.implied (Or.inr (by decide +kernel))), bind_some top.popNamed]
    show some (Next.done, ({ closing (hush s2) s.opened with active := afterMarker s2.active, mode := .inTable } : St)) = _
    rw [hmark rfl]
    unfold partClose
    rw [show s.mode = .inTable from hA]
    rfl

theorem table_columns {env : Env} {s : St} {above : List Str} (h : Inside s ("table".toList :: above)) (hA : At s .table) (as : Attrs)
    {kids : List Tree}
    (ih : ∀ s1, Inside s1 ("colgroup".toList :: "table".toList :: above) → At s1 .columns → NoText s1 → Results env s1 kids) :
    Result env s (.elem "colgroup".toList as kids) := by
  obtain ⟨e, rest, top⟩ := h.hush.topOf
  obtain ⟨d1, e1, hA1⟩ := insert_new h.hush "colgroup".toList as
  refine part h (m := .inColumnGroup) (marker := false) (b := s.framesetOk) (by decide +kernel) (by decide +kernel) (by decide +kernel) hA1 ?_
    (fun hR hN => ih _ hR rfl hN) ?_
  · rw [show s.mode = .inTable from hA, table_start_colgroup]
    apply fin_some
    rw [show clearToTable = clearTo ["table", "template", "html"] from rfl, bind_some (clearTo_none top (by decide +kernel)), bind_some e1]
    rfl
  · intro s2 hR2 hm2 top _ _
    have hs : partClose s s2 false = { closing (hush s2) s.opened with mode := .inTable } := by
      unfold partClose
      rw [show s.mode = .inTable from hA]
      rfl
    rw [hs]
    refine read_again hR2.isPlain (s1 := { closing (hush s2) s.opened with mode := .inTable }) ?_ hR2.lf hR2.fin ?_ ⟨hR2.queue, rfl⟩
    · rw [hm2, columns_end]
      unfold closeColgroup
      have hc : is (curTag (hush s2)) "colgroup" = true := by
        have : current (hush s2) = s.doc.nextId := by unfold current; rw [top.opened]; rfl
        unfold curTag
        rw [this, top.name]
        decide +kernel
      rw [if_yes hc]
      apply re_some
      rw [bind_some top.pop]
      rfl
    · show byMode env .inTable _ _ = _
      rw [table_end_colgroup]
      rfl

theorem table_section {env : Env} {s : St} {above : List Str} (h : Inside s ("table".toList :: above)) (hA : At s .table) {n : Str}
    (hn : n ∈ names ["thead", "tbody", "tfoot"]) (as : Attrs) {kids : List Tree}
    (ih : ∀ s1, Inside s1 (n :: "table".toList :: above) → At s1 .rows → NoText s1 → Results env s1 kids) :
    Result env s (.elem n as kids) := by
  have key : ∀ m ∈ names ["thead", "tbody", "tfoot"], m ∉ voids ∧ m ≠ "template".toList ∧ m ∉ texts ∧
      oneOf m ["tbody", "tfoot", "thead", "template", "html"] = true := by decide +kernel
  obtain ⟨k1, k2, k4, k3⟩ := key n hn
  obtain ⟨e, rest, top⟩ := h.hush.topOf
  obtain ⟨d1, e1, hA1⟩ := insert_new h.hush n as
  refine part h (m := .inTableBody) (marker := false) (b := s.framesetOk) k1 k2 k4 hA1 ?_
    (fun hR hN => ih _ hR rfl hN) ?_
  · rw [show s.mode = .inTable from hA, table_start_section env false as hn]
    apply fin_some
    rw [show clearToTable = clearTo ["table", "template", "html"] from rfl, bind_some (clearTo_none top (by decide +kernel)), bind_some e1]
    rfl
  · intro s2 hR2 hm2 top _ _
    refine read_done hR2.isPlain ?_ ⟨hR2.queue, rfl⟩
    rw [hm2, body_end env hn, if_yes (top.inScope .table)]
    apply fin_some
    unfold closeSection
    rw [show clearToBody = clearTo ["tbody", "tfoot", "thead", "template", "html"] from rfl, bind_some (clearTo_none top k3),
      bind_some top.pop]
    unfold partClose
    rw [show s.mode = .inTable from hA]
    rfl

theorem section_row {env : Env} {s : St} {q : Str} {above : List Str} (h : Inside s (q :: above)) (hA : At s .rows)
    (hq : q ∈ names ["thead", "tbody", "tfoot"]) (as : Attrs) {kids : List Tree}
    (ih : ∀ s1, Inside s1 ("tr".toList :: q :: above) → At s1 .cells → NoText s1 → Results env s1 kids) :
    Result env s (.elem "tr".toList as kids) := by
  have key : ∀ m ∈ names ["thead", "tbody", "tfoot"], oneOf m ["tbody", "tfoot", "thead", "template", "html"] = true := by decide +kernel
  obtain ⟨e, rest, top⟩ := h.hush.topOf
  obtain ⟨d1, e1, hA1⟩ := insert_new h.hush "tr".toList as
  refine part h (m := .inRow) (marker := false) (b := s.framesetOk) (by decide +kernel) (by decide +kernel) (by decide +kernel) hA1 ?_
    (fun hR hN => ih _ hR rfl hN) ?_
  · rw [show s.mode = .inTableBody from hA, body_row]
    apply fin_some
    rw [show clearToBody = clearTo ["tbody", "tfoot", "thead", "template", "html"] from rfl, bind_some (clearTo_none top (key q hq)), bind_some e1]
    rfl
  · intro s2 hR2 hm2 top _ _
    refine read_done hR2.isPlain ?_ ⟨hR2.queue, rfl⟩
    rw [hm2, row_end, if_yes (show inScopeS "tr" .table (hush s2) = true from top.inScope .table)]
    apply fin_some
    unfold closeRow
    rw [show clearToRow = clearTo ["tr", "template", "html"] from rfl, bind_some (clearTo_none top (by decide +kernel)),
      bind_some top.pop]
    unfold partClose
    rw [show s.mode = .inTableBody from hA]
    rfl

theorem modeFor_cell {s : St} {x : Nat} {r : List Nat} (h : tag s.doc x ∈ names ["td", "th"]) : modeFor s false x r = some .inCell := by
  have key : ∀ m ∈ names ["td", "th"], is m "select" = false ∧ oneOf m ["td", "th"] = true := by decide +kernel
  obtain ⟨h1, h2⟩ := key _ h
  unfold modeFor
  simp only [h1, h2, Bool.false_eq_true, if_false]
  rfl

theorem row_td {env : Env} {s : St} {above : List Str} (h : Inside s ("tr".toList :: above)) (hA : At s .cells) {n : Str}
    (hn : n ∈ names ["td", "th"]) (as : Attrs) {kids : List Tree}
    (ih : ∀ s1, Inside s1 (n :: "tr".toList :: above) → At s1 .flow → NoText s1 → Results env s1 kids) :
    Result env s (.elem n as kids) := by
  have key : ∀ m ∈ names ["td", "th"], m ∉ voids ∧ m ≠ "template".toList ∧ m ∉ texts ∧ oneOf m impliedTags = false := by decide +kernel
  obtain ⟨k1, k2, k4, k3⟩ := key n hn
  obtain ⟨e, rest, top⟩ := h.hush.topOf
  obtain ⟨d1, e1, hA1⟩ := insert_new h.hush n as
  refine part h (m := .inCell) (marker := true) (b := s.framesetOk) k1 k2 k4 hA1 ?_
    (fun hR hN => ih _ hR ⟨Or.inr (Or.inl rfl), ?_⟩ hN) ?_
  · rw [show s.mode = .inRow from hA, row_cell env false as hn]
    apply fin_some
    rw [show clearToRow = clearTo ["tr", "template", "html"] from rfl, bind_some (clearTo_none top (by decide +kernel)), bind_some e1]
    rfl
  · obtain ⟨x, r, hx⟩ := List.exists_cons_of_ne_nil h.stack
    show resetMode _ (s.doc.nextId :: s.opened) = .inCell
    rw [hx]
    unfold resetMode
    rw [modeFor_cell (s := partOpen s d1 .inCell true s.framesetOk)]
    rw [show tag (partOpen s d1 .inCell true s.framesetOk).doc s.doc.nextId = n from added_tag hA1]
    exact hn
  · intro s2 hR2 hm2 top hmark _
    refine read_done hR2.isPlain ?_ ⟨hR2.queue, rfl⟩
    rw [hm2, cell_end env hn, if_yes (top.inScope .table)]
    apply fin_some
    rw [bind_some (top.implied (th := false) (Or.inr k3)), bind_some top.popNamed]
    show some ((), ({ closing (hush s2) s.opened with active := afterMarker s2.active, mode := .inRow } : St)) = _
    rw [hmark rfl]
    unfold partClose
    rw [show s.mode = .inRow from hA]
    rfl

theorem columns_void {env : Env} {s : St} {above : List Str} (h : Inside s above) (hA : At s .columns) (as : Attrs) :
    Result env s (.elem "col".toList as []) := by
  obtain ⟨d1, e1, hA1⟩ := insertVoid_new h.hush "col".toList as
  refine empty h (by decide +kernel) ?_ hA1 ⟨s.framesetOk, rfl⟩
  rw [show s.mode = .inColumnGroup from hA, columns_col]
  exact fin_some e1

/-! ## Everything -/

/-- the current node is the one this content belongs to -/
def Near : Where → List Str → Prop
  | .table, above => above.head? = some "table".toList
  | .rows, above => ∃ q ∈ above.head?, q ∈ names ["thead", "tbody", "tfoot"]
  | .cells, above => above.head? = some "tr".toList
  | _, _ => True

theorem At.note {s : St} {w : Where} (h : At s w) (env : Env) (v : Str) : byMode env s.mode (.comment v) = fin (insertComment v) := by
  cases w with
  | flow => exact flow_comment h.1 v
  | _ => rw [show s.mode = _ from h]; rfl

theorem After.noText {s s' : St} {i : Nat} {t : Tree} {above : List Str} (hR : Inside s above) (h : After s s' [i])
    (ht : TreeFrom s'.doc s.doc.nextId i t) (hn : t.isText = false) : NoText s' := by
  intro j hj
  rw [h.current, h.grow.children (hR.here _ hR.cur).1, List.getLast?_append] at hj
  simp only [List.getLast?_singleton, Option.some_or, Option.some.injEq] at hj
  subst hj
  have hd : ∀ {x : Data}, dataAt s'.doc i = some x → (∀ v, x ≠ .text v) → TreeBuild.isText s'.doc i = false := by
    intro x hx hne
    unfold dataAt at hx
    unfold TreeBuild.isText
    obtain ⟨nd, h1, h2⟩ := Option.map_eq_some_iff.1 hx
    rw [h1]
    obtain ⟨a, b, c⟩ := nd
    cases h2
    cases c with
    | text v => exact absurd rfl (hne v)
    | _ => rfl
  cases t with
  | text v => cases hn
  | comment v => exact hd ht.2.1 (fun v h => by cases h)
  | elem n as kids =>
    obtain ⟨-, ⟨e, h1, -⟩, -⟩ := ht
    exact hd h1 (fun v h => by cases h)

mutual
theorem tree_read (env : Env) : ∀ (t : Tree) {w : Where} {above : List Str} {s : St}, Fits w above t → Near w above → Inside s above →
    At s w → (t.isText = true → NoText s) → Result env s t
  | .comment v, w, above, s, _, _, hR, hA, _ => note hR (hA.note env v)
  | .text v, w, above, s, hF, _, hR, hA, hN => by
    obtain ⟨h1, h2⟩ := hF
    cases w with
    | flow => exact flow_string hR hA h1 h2 (hN rfl)
    | head => exact head_string hR hA h1 h2 (hN rfl)
    | _ => exact absurd h2 id
  | .elem n as kids, w, above, s, hF, hW, hR, hA, _ => by
    cases w with
    | flow =>
      rcases hF with ⟨h1, h2, rfl, h3⟩ | ⟨h1, h2, h3⟩ | ⟨rfl, h2, h3⟩ | ⟨h1, h2, h3, h4⟩
      · exact flow_void hR hA as h1 h2 h3
      · exact flow_raw hR hA as h1 h2 h3
      · exact flow_table hR hA as h2 fun s1 hR1 hA1 hN1 => trees_read env kids h3 rfl hR1 hA1 fun _ _ _ => hN1
      · exact flow_elem hR hA as h1 h2 h3 fun s1 hR1 hA1 hN1 => trees_read env kids h4 trivial hR1 hA1 fun _ _ _ => hN1
    | head => exact head_elem hR hA as hF.1 hF.2
    | table =>
      cases above with
      | nil => cases hW
      | cons q above =>
        obtain rfl : q = "table".toList := Option.some.inj hW
        rcases hF with ⟨rfl, h1⟩ | ⟨rfl, h1⟩ | ⟨h0, h1⟩
        · exact table_caption hR hA as fun s1 hR1 hA1 hN1 => trees_read env kids h1 trivial hR1 hA1 fun _ _ _ => hN1
        · exact table_columns hR hA as fun s1 hR1 hA1 hN1 => trees_read env kids h1 trivial hR1 hA1 fun _ _ _ => hN1
        · exact table_section hR hA h0 as fun s1 hR1 hA1 hN1 => trees_read env kids h1 ⟨n, rfl, h0⟩ hR1 hA1 fun _ _ _ => hN1
    | rows =>
      cases above with
      | nil => obtain ⟨q, h1, -⟩ := hW; cases h1
      | cons q above =>
        obtain ⟨q', h1, h2⟩ := hW
        obtain rfl : q = q' := Option.some.inj h1
        obtain ⟨rfl, h3⟩ := hF
        exact section_row hR hA h2 as fun s1 hR1 hA1 hN1 => trees_read env kids h3 rfl hR1 hA1 fun _ _ _ => hN1
    | cells =>
      cases above with
      | nil => cases hW
      | cons q above =>
        obtain rfl : q = "tr".toList := Option.some.inj hW
        obtain ⟨h1, h2⟩ := hF
        exact row_td hR hA h1 as fun s1 hR1 hA1 hN1 => trees_read env kids h2 trivial hR1 hA1 fun _ _ _ => hN1
    | columns =>
      obtain ⟨rfl, rfl⟩ := hF
      exact columns_void hR hA as
theorem trees_read (env : Env) : ∀ (ts : List Tree) {w : Where} {above : List Str} {s : St}, AllFit w above ts → Near w above → Inside s above →
    At s w → (∀ u ∈ ts.head?, u.isText = true → NoText s) → Results env s ts
  | [], w, above, s, _, _, hR, _, _ => ⟨s, [], Reads.refl env s, After.refl hR, rfl⟩
  | t :: r, w, above, s, hF, hW, hR, hA, hN => by
    obtain ⟨h1, h2, h3⟩ := hF
    obtain ⟨s1, i, r1, a1, t1⟩ := tree_read env t h1 hW hR hA (hN t rfl)
    obtain ⟨s2, new, r2, a2, t2⟩ := trees_read env r h2 hW (a1.ready hR) (hA.after hR a1) fun u hu hut =>
      a1.noText hR t1 (by
        cases ht : t.isText with
        | false => rfl
        | true => exact absurd ⟨ht, hut⟩ (h3 u hu))
    refine ⟨s2, i :: new, r1.trans r2, a1.trans a2, ?_⟩
    have hg : Grow s1.doc s2.doc (current s) new := by rw [← a1.current]; exact a2.grow
    exact treesFrom_cons (hR.lt hR.cur) a1.grow.next hg t1 t2
end

end Verif.TreeBuild
