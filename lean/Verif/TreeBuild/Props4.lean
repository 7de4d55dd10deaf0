import Verif.TreeBuild.Spec4
import Verif.TreeBuild.Props3

/-!
# C108: a document written by the engine and parsed again
-/
namespace Verif.TreeBuild
open Verif Verif.Dom
open Verif.HtmlTok (print Printable escape)

/-! ## The writer -/

theorem concat_mono {l m : List (Option Str)} (h : List.Forall₂ (fun a b => ∀ x, a = some x → b = some x) l m) {out : Str}
    (hl : Writer.concat l = some out) : Writer.concat m = some out := by
  induction h generalizing out with
  | nil => exact hl
  | cons hab _ ih =>
    unfold Writer.concat at hl ⊢
    obtain ⟨x, h1, h2⟩ := Option.bind_eq_some_iff.1 hl
    obtain ⟨y, h3, h4⟩ := Option.map_eq_some_iff.1 h2
    rw [hab x h1, ih h3]
    exact congrArg some h4

theorem writeNode_succ (order : List (Str × Str) → List (Str × Str)) (d : Doc) : ∀ (k i : Nat) (out : Str),
    Writer.writeNode order d k i = some out → Writer.writeNode order d (k + 1) i = some out
  | 0, _, _, h => by cases h
  | k + 1, i, out, h => by
    have key : ∀ {x : Str}, Writer.concat ((children d i).map (Writer.writeNode order d k)) = some x →
        Writer.concat ((children d i).map (Writer.writeNode order d (k + 1))) = some x := by
      intro x hx
      refine concat_mono ?_ hx
      rw [List.forall₂_map_left_iff, List.forall₂_map_right_iff, List.forall₂_same]
      exact fun j _ y hy => writeNode_succ order d k j y hy
    unfold Writer.writeNode at h ⊢
    simp only at h ⊢
    split at h
    all_goals first
      | exact key h
      | (obtain ⟨x, h1, h2⟩ := Option.map_eq_some_iff.1 h
         rw [key h1]
         exact congrArg some h2)

theorem writeNode_le {order : List (Str × Str) → List (Str × Str)} {d : Doc} {k m i : Nat} {out : Str}
    (h : Writer.writeNode order d k i = some out) (hm : k ≤ m) : Writer.writeNode order d m i = some out := by
  obtain ⟨j, rfl⟩ := Nat.le.dest hm
  induction j with
  | zero => exact h
  | succ j ih => exact writeNode_succ order d _ _ _ (ih (Nat.le_add_right _ _))

theorem writes_unique {order : List (Str × Str) → List (Str × Str)} {d : Doc} {i : Nat} {a b : Str} (ha : Writes order d i a)
    (hb : Writes order d i b) : a = b := by
  obtain ⟨k, h1⟩ := ha
  obtain ⟨m, h2⟩ := hb
  have h3 := writeNode_le h1 (Nat.le_max_left k m)
  rw [writeNode_le h2 (Nat.le_max_right k m)] at h3
  exact (Option.some.inj h3).symm

/-- the nodes of a list, one after the other -/
def AllWrite (order : List (Str × Str) → List (Str × Str)) (d : Doc) (l : List Nat) (out : Str) : Prop :=
  ∃ k, Writer.concat (l.map (Writer.writeNode order d k)) = some out

theorem AllWrite.nil (order : List (Str × Str) → List (Str × Str)) (d : Doc) : AllWrite order d [] [] := ⟨0, rfl⟩

theorem AllWrite.cons {order : List (Str × Str) → List (Str × Str)} {d : Doc} {i : Nat} {l : List Nat} {a b : Str}
    (ha : Writes order d i a) (hb : AllWrite order d l b) : AllWrite order d (i :: l) (a ++ b) := by
  obtain ⟨k, h1⟩ := ha
  obtain ⟨m, h2⟩ := hb
  refine ⟨max k m, ?_⟩
  rw [List.map_cons, Writer.concat, writeNode_le h1 (Nat.le_max_left k m)]
  have : Writer.concat (l.map (Writer.writeNode order d (max k m))) = some b := by
    refine concat_mono ?_ h2
    rw [List.forall₂_map_left_iff, List.forall₂_map_right_iff, List.forall₂_same]
    exact fun j _ y hy => writeNode_le hy (Nat.le_max_right k m)
  rw [Option.bind_some, this]
  rfl

variable {order : List (Str × Str) → List (Str × Str)} {d : Doc} {i : Nat} {x : Str}

theorem writes_document (h : dataAt d i = some .document) (hc : AllWrite order d (children d i) x) : Writes order d i x := by
  obtain ⟨k, hk⟩ := hc
  refine ⟨k + 1, ?_⟩
  unfold Writer.writeNode
  simp only [show (nodeAt d i).map Node.data = _ from h]
  exact hk

theorem writes_doctype {n p s : Str} (h : dataAt d i = some (.doctype n p s)) (hc : children d i = []) :
    Writes order d i (print (.doctype (some n) false none none)) := by
  refine ⟨1, ?_⟩
  unfold Writer.writeNode
  simp only [show (nodeAt d i).map Node.data = _ from h, hc]
  show some ("<!DOCTYPE ".toList ++ (n ++ ['>'])) = some ("<!DOCTYPE ".toList ++ n ++ ['>'])
  rw [List.append_assoc]

theorem writes_text {v : Str} (h : dataAt d i = some (.text v)) (hc : children d i = []) : Writes order d i v := by
  refine ⟨1, ?_⟩
  unfold Writer.writeNode
  simp only [show (nodeAt d i).map Node.data = _ from h, hc]
  show some (v ++ []) = _
  rw [List.append_nil]

theorem writes_comment {v : Str} (h : dataAt d i = some (.comment v)) (hc : children d i = []) :
    Writes order d i (print (.comment v)) := by
  refine ⟨1, ?_⟩
  unfold Writer.writeNode
  simp only [show (nodeAt d i).map Node.data = _ from h, hc]
  show some ("<!--".toList ++ (v ++ ("-->".toList ++ []))) = some ("<!--".toList ++ v ++ "-->".toList)
  rw [List.append_nil, List.append_assoc]

theorem writes_element {e : Elem} (h : dataAt d i = some (.element e)) (hc : AllWrite order d (children d i) x) :
    Writes order d i ('<' :: (e.name ++ (Writer.writeAttrs order e.attrs ++ ('>' :: (x ++ ('<' :: '/' :: (e.name ++ ['>']))))))) := by
  obtain ⟨k, hk⟩ := hc
  refine ⟨k + 1, ?_⟩
  unfold Writer.writeNode
  simp only [show (nodeAt d i).map Node.data = _ from h, hk]
  rfl

/-! ## What is written is what the standard says -/

theorem escape_simple (b : Bool) {v : Str} (h : Simple v) : escape b v = v := by
  unfold escape
  induction v with
  | nil => rfl
  | cons c v ih =>
    rw [List.flatMap_cons, ih fun c hc => h c (List.mem_cons_of_mem _ hc)]
    have hc := h c (List.mem_cons_self)
    simp only [List.mem_cons, List.not_mem_nil, or_false, not_or] at hc
    obtain ⟨h1, h2, h3, h4, h5⟩ := hc
    have : HtmlTok.escapeChar b c = [c] := by
      unfold HtmlTok.escapeChar
      rw [if_neg h1, if_neg h5, if_neg h2, if_neg h3]
      simp [h4]
    rw [this]; rfl

theorem attrs_simple {as : List (Str × Str)} (h : ∀ a ∈ order as, Simple a.2) :
    Writer.writeAttrs order as = (order as).flatMap HtmlTok.printAttr := by
  unfold Writer.writeAttrs
  refine List.flatMap_congr fun a ha => ?_
  unfold HtmlTok.printAttr
  rw [escape_simple true (h a ha)]
  simp

theorem element_print {n : Str} {as : List (Str × Str)} (h : ∀ a ∈ order as, Simple a.2) :
    '<' :: (n ++ (Writer.writeAttrs order as ++ ('>' :: (x ++ ('<' :: '/' :: (n ++ ['>'])))))) =
      print (.startTag n false (order as)) ++ (x ++ print (.endTag n)) := by
  rw [attrs_simple h]
  show _ = (['<'] ++ n ++ (order as).flatMap HtmlTok.printAttr ++ ['>']) ++ (x ++ (['<', '/'] ++ n ++ ['>']))
  simp only [List.append_assoc, List.cons_append, List.nil_append]

variable (ho : ∀ as, (order as).Perm as)

include ho in
theorem simple_order {as : List (Str × Str)} (h : ∀ a ∈ as, Simple a.2) : ∀ a ∈ order as, Simple a.2 :=
  fun a ha => h a ((ho as).mem_iff.1 ha)

theorem isText_reorder (f : List (Str × Str) → List (Str × Str)) (t : Tree) : (t.reorder f).isText = t.isText := by
  cases t <;> simp [Tree.reorder, Tree.isText]

theorem head_reorder (f : List (Str × Str) → List (Str × Str)) (ts : List Tree) :
    (reorderAll f ts).head? = ts.head?.map (Tree.reorder f) := by
  cases ts <;> simp [reorderAll]

theorem onlyText_reorder {f : List (Str × Str) → List (Str × Str)} {ts : List Tree} (h : OnlyText ts) : reorderAll f ts = ts := by
  rcases h with rfl | ⟨v, _, rfl⟩
  · rfl
  · simp [reorderAll, Tree.reorder]

mutual
theorem fits_reorder (f : List (Str × Str) → List (Str × Str)) : ∀ (t : Tree) {w : Where} {above : List Str}, Fits w above t →
    Fits w above (t.reorder f)
  | .comment v, _, _, h => by unfold Tree.reorder; exact h
  | .text v, _, _, h => by unfold Tree.reorder; exact h
  | .elem n as kids, w, above, h => by
    have ih : ∀ {w' : Where}, AllFit w' (n :: above) kids → AllFit w' (n :: above) (reorderAll f kids) := fun h => allFit_reorder f kids h
    have only : OnlyText kids → OnlyText (reorderAll f kids) := fun h => by rw [onlyText_reorder h]; exact h
    have none : kids = [] → reorderAll f kids = [] := fun h => by rw [h]; rfl
    unfold Tree.reorder
    unfold Fits at h ⊢
    cases w with
    | flow =>
      rcases h with ⟨h1, h2, h3, h4⟩ | ⟨h1, h2, h3⟩ | ⟨h1, h2, h3⟩ | ⟨h1, h2, h3, h4⟩
      · exact Or.inl ⟨h1, h2, none h3, h4⟩
      · exact Or.inr (Or.inl ⟨h1, only h2, h3⟩)
      · exact Or.inr (Or.inr (Or.inl ⟨h1, h2, ih h3⟩))
      · exact Or.inr (Or.inr (Or.inr ⟨h1, h2, h3, ih h4⟩))
    | head =>
      rcases h with ⟨h0, ⟨h1, h2⟩ | ⟨h1, h2⟩⟩
      · exact ⟨h0, Or.inl ⟨h1, none h2⟩⟩
      · exact ⟨h0, Or.inr ⟨h1, only h2⟩⟩
    | table =>
      rcases h with ⟨h1, h2⟩ | ⟨h1, h2⟩ | ⟨h1, h2⟩
      · exact Or.inl ⟨h1, ih h2⟩
      · exact Or.inr (Or.inl ⟨h1, ih h2⟩)
      · exact Or.inr (Or.inr ⟨h1, ih h2⟩)
    | rows => exact ⟨h.1, ih h.2⟩
    | cells => exact ⟨h.1, ih h.2⟩
    | columns => exact ⟨h.1, none h.2⟩
theorem allFit_reorder (f : List (Str × Str) → List (Str × Str)) : ∀ (ts : List Tree) {w : Where} {above : List Str}, AllFit w above ts →
    AllFit w above (reorderAll f ts)
  | [], _, _, h => by unfold reorderAll; exact h
  | t :: r, _, _, h => by
    unfold reorderAll
    unfold AllFit at h ⊢
    refine ⟨fits_reorder f t h.1, allFit_reorder f r h.2.1, fun u hu => ?_⟩
    rw [head_reorder] at hu
    obtain ⟨u', h1, rfl⟩ := Option.map_eq_some_iff.1 hu
    rw [isText_reorder, isText_reorder]
    exact h.2.2 u' h1
end

include ho in
theorem printable_reorder {n : Str} {as : List (Str × Str)} (h : Printable (.startTag n false as)) :
    Printable (.startTag n false (order as)) := by
  obtain ⟨h1, ⟨h2, h3⟩, h4⟩ := h
  exact ⟨h1, ⟨((ho as).map _).nodup_iff.2 h2, fun a ha => h3 a ((ho as).mem_iff.1 ha)⟩, fun a ha => h4 a ((ho as).mem_iff.1 ha)⟩

theorem text_reorder {f : List (Str × Str) → List (Str × Str)} {v : Str} : ∀ {ts : List Tree}, .text v ∈ reorderAll f ts → .text v ∈ ts
  | [], h => by unfold reorderAll at h; cases h
  | t :: r, h => by
    unfold reorderAll at h
    rcases List.mem_cons.1 h with h | h
    · cases t with
      | text u => unfold Tree.reorder at h; rw [h]; exact List.mem_cons_self
      | comment u => unfold Tree.reorder at h; cases h
      | elem n as kids => unfold Tree.reorder at h; cases h
    · exact List.mem_cons_of_mem _ (text_reorder h)

include ho in
mutual
theorem writable_reorder : ∀ (t : Tree), t.Writable → (t.reorder order).Writable
  | .comment v, h => by unfold Tree.reorder; exact h
  | .text v, h => by unfold Tree.reorder; exact h
  | .elem n as kids, h => by
    unfold Tree.reorder
    unfold Tree.Writable at h ⊢
    exact ⟨printable_reorder ho h.1, fun hn v hv => h.2.1 hn v (text_reorder hv), allWritable_reorder kids h.2.2⟩
theorem allWritable_reorder : ∀ (ts : List Tree), AllWritable ts → AllWritable (reorderAll order ts)
  | [], h => by unfold reorderAll; exact h
  | t :: r, h => by
    unfold reorderAll
    unfold AllWritable at h ⊢
    exact ⟨writable_reorder t h.1, allWritable_reorder r h.2⟩
end

include ho in
theorem elem_writes {n : Str} {as : List (Str × Str)} {kids : List Tree} (hv : n ∉ voids) (hs : ∀ a ∈ as, Simple a.2)
    (hd : ∃ e, dataAt d i = some (.element e) ∧ e.name = n ∧ e.ns = "http://www.w3.org/1999/xhtml".toList ∧ e.attrs = as)
    (hk : AllWrite order d (children d i) (if n ∈ texts ∧ n ≠ "title".toList then plainText (reorderAll order kids)
      else writeAll (reorderAll order kids))) : Writes order d i ((Tree.elem n as kids).reorder order).write := by
  obtain ⟨e, he, rfl, _, rfl⟩ := hd
  have := writes_element he hk
  rw [element_print (simple_order ho hs)] at this
  unfold Tree.reorder
  rw [write_elem hv]
  exact this

include ho in
mutual
theorem tree_writes : ∀ (t : Tree) {w : Where} {above : List Str} (i : Nat), Fits w above t → t.Bland → IsTree d i t →
    Writes order d i (t.reorder order).write
  | .comment v, _, _, i, _, _, h => by
    unfold Tree.reorder Tree.write
    unfold IsTree at h
    exact writes_comment h.1 h.2
  | .text v, _, _, i, _, hb, h => by
    unfold Tree.reorder Tree.write
    unfold IsTree at h
    unfold Tree.Bland at hb
    rw [show print (.text v) = escape false v from rfl, escape_simple false hb]
    exact writes_text h.1 h.2
  | .elem n as kids, w, above, i, hf, hb, h => by
    unfold IsTree at h
    unfold Tree.Bland at hb
    obtain ⟨hv, hs, hb⟩ := hb
    refine elem_writes ho hv hs h.1 ?_
    by_cases hr : n ∈ texts ∧ n ≠ "title".toList
    · rw [if_pos hr]
      have only : OnlyText kids := by
        unfold Fits at hf
        have key : ∀ m ∈ texts, m ≠ "table".toList ∧ m ≠ "caption".toList ∧ m ≠ "colgroup".toList ∧
          m ∉ names ["thead", "tbody", "tfoot"] ∧ m ≠ "tr".toList ∧ m ∉ names ["td", "th"] ∧ m ≠ "col".toList := by decide +kernel
        obtain ⟨k1, k2, k3, k4, k5, k6, k7⟩ := key n hr.1
        cases w with
        | flow =>
          rcases hf with ⟨h1, _⟩ | ⟨_, h2, _⟩ | ⟨h1, _⟩ | ⟨_, h2, _⟩
          · exact absurd h1 hv
          · exact h2
          · exact absurd h1 k1
          · exact absurd hr.1 h2
        | head =>
          rcases hf with ⟨_, ⟨h1, _⟩ | ⟨_, h2⟩⟩
          · exact absurd h1 hv
          · exact h2
        | table =>
          rcases hf with ⟨h1, _⟩ | ⟨h1, _⟩ | ⟨h1, _⟩
          · exact absurd h1 k2
          · exact absurd h1 k3
          · exact absurd h1 k4
        | rows => exact absurd hf.1 k5
        | cells => exact absurd hf.1 k6
        | columns => exact absurd hf.1 k7
      rw [onlyText_reorder only]
      rcases only with rfl | ⟨v, _, rfl⟩
      · unfold AreTrees at h
        rw [h.2]
        exact .nil order d
      · rw [plainText_one]
        unfold AreTrees AreTrees IsTree at h
        obtain ⟨_, j, l, h1, h2, h3⟩ := h
        rw [h1, h3]
        have := AllWrite.cons (writes_text (order := order) h2.1 h2.2) (.nil order d)
        rwa [List.append_nil] at this
    · rw [if_neg hr]
      have hb := hb.resolve_left hr
      have sub : ∀ {w' : Where}, AllFit w' (n :: above) kids → AllWrite order d (children d i) (writeAll (reorderAll order kids)) :=
        fun h1 => trees_write kids _ h1 hb h.2
      have only : OnlyText kids → AllWrite order d (children d i) (writeAll (reorderAll order kids)) := by
        intro ho
        rw [onlyText_reorder ho]
        rcases ho with rfl | ⟨v, _, rfl⟩
        · have h := h.2
          unfold AreTrees at h
          rw [h]
          exact .nil order d
        · unfold AllBland Tree.Bland at hb
          rw [writeAll_one, escape_simple false hb.1]
          have h := h.2
          unfold AreTrees AreTrees IsTree at h
          obtain ⟨j, l, h1, h2, h3⟩ := h
          rw [h1, h3]
          have := AllWrite.cons (writes_text (order := order) h2.1 h2.2) (.nil order d)
          rwa [List.append_nil] at this
      unfold Fits at hf
      cases w with
      | flow =>
        rcases hf with ⟨h1, _⟩ | ⟨_, h2, _⟩ | ⟨_, _, h2⟩ | ⟨_, _, _, h2⟩
        · exact absurd h1 hv
        · exact only h2
        · exact sub h2
        · exact sub h2
      | head =>
        rcases hf with ⟨_, ⟨h1, _⟩ | ⟨_, h2⟩⟩
        · exact absurd h1 hv
        · exact only h2
      | table =>
        rcases hf with ⟨_, h2⟩ | ⟨_, h2⟩ | ⟨_, h2⟩ <;> exact sub h2
      | rows => exact sub hf.2
      | cells => exact sub hf.2
      | columns => exact only (Or.inl hf.2)
theorem trees_write : ∀ (ts : List Tree) {w : Where} {above : List Str} (l : List Nat), AllFit w above ts → AllBland ts → AreTrees d l ts →
    AllWrite order d l (writeAll (reorderAll order ts))
  | [], _, _, l, _, _, h => by
    unfold AreTrees at h
    unfold reorderAll writeAll
    rw [h]
    exact .nil order d
  | t :: r, _, _, l, hf, hb, h => by
    unfold AreTrees at h
    unfold AllFit at hf
    unfold AllBland at hb
    obtain ⟨j, l', rfl, h1, h2⟩ := h
    unfold reorderAll writeAll
    exact .cons (tree_writes t j hf.1 hb.1 h1) (trees_write r l' hf.2.1 hb.2 h2)
end

theorem reorder_fits (f : List (Str × Str) → List (Str × Str)) {P : Page} (h : P.fits) : (P.reorder f).fits :=
  ⟨allFit_reorder f _ h.1, allFit_reorder f _ h.2⟩

theorem root_reorder (f : List (Str × Str) → List (Str × Str)) (P : Page) : (P.reorder f).root = P.root.reorder f := by
  unfold Page.root Page.reorder
  simp only [Tree.reorder, reorderAll]

include ho in
theorem reorder_writable {P : Page} (h : P.Writable) : (P.reorder order).Writable := by
  refine ⟨h.1, ?_⟩
  rw [root_reorder]
  exact writable_reorder ho _ h.2

include ho in
theorem root_writes {P : Page} (hf : P.fits) (hb : P.Bland) {j : Nat} (h : IsTree d j P.root) :
    Writes order d j (P.reorder order).root.write := by
  unfold Page.Bland Page.root Tree.Bland AllBland AllBland AllBland at hb
  obtain ⟨_, b1, b2⟩ := hb
  have b2 := b2.resolve_left (by decide +kernel)
  obtain ⟨b3, b4, _⟩ := b2
  unfold Tree.Bland at b3 b4
  unfold Page.root IsTree AreTrees AreTrees AreTrees IsTree at h
  obtain ⟨h1, x, l, h2, ⟨h3, h4⟩, y, l', h5, ⟨h6, h7⟩, h8⟩ := h
  rw [root_reorder]
  unfold Page.root
  refine elem_writes ho (by decide +kernel) b1 h1 ?_
  rw [if_neg (by decide +kernel), h2, h5, h8]
  simp only [reorderAll, writeAll]
  refine .cons ?_ (.cons ?_ (.nil order d))
  · refine elem_writes ho (by decide +kernel) b3.2.1 h3 ?_
    rw [if_neg (by decide +kernel)]
    exact trees_write ho P.head _ hf.1 (b3.2.2.resolve_left (by decide +kernel)) h4
  · refine elem_writes ho (by decide +kernel) b4.2.1 h6 ?_
    rw [if_neg (by decide +kernel)]
    exact trees_write ho P.body _ hf.2 (b4.2.2.resolve_left (by decide +kernel)) h7

include ho in
theorem page_writes {P : Page} (hf : P.fits) (hw : P.Writable) (hb : P.Bland) (h : IsPage d P) :
    Writes order d 0 (P.reorder order).write := by
  refine writes_document h.1 ?_
  have h := h.2
  unfold Page.write
  have hr : (P.reorder order).doctype = P.doctype := rfl
  rw [hr]
  cases hd : P.doctype with
  | none =>
    rw [hd] at h
    unfold AreTrees AreTrees at h
    obtain ⟨j, l, h1, h2, h3⟩ := h
    rw [h1, h3]
    have := AllWrite.cons (root_writes ho hf hb h2) (.nil order d)
    rw [List.append_nil] at this
    exact this
  | some x =>
    obtain ⟨n, q, pub, sys⟩ := x
    rw [hd] at h
    obtain ⟨⟨m, rfl, _⟩, rfl, rfl, rfl⟩ := hw.1 _ _ _ _ hd
    obtain ⟨j, k, h1, h2, h3, h4⟩ := h
    rw [h1]
    have := AllWrite.cons (writes_doctype h2 h3) (.cons (root_writes ho hf hb h4) (.nil order d))
    rw [List.append_nil] at this
    exact this

/-- **C108**, for pages in which every element has an end tag and nothing needs to be escaped: a document that is such a page, written
by the engine and parsed again, is the same page, whatever order the attributes are written in. Missing: elements without end tag and
text or attribute values with special characters (`C108_void_violated`, `C108_text_violated`, `C108_attribute_violated`). -/
theorem C108_round_trip_partial (tenv : HtmlTok.Env) (hE : tenv.names = CharRef.tokenNamedChars) (env : Env) (p : HtmlTok.Parser)
    (hp : Serves env p) (order : List (Str × Str) → List (Str × Str)) (ho : ∀ as, (order as).Perm as) (P : Page) (hf : P.fits)
    (hw : P.Writable) (hb : P.Bland) (d : Doc) (h : IsPage d P) :
    ∃ out, Writes order d 0 out ∧ (∀ out', Writes order d 0 out' → out' = out) ∧
      (∃ toks d', HtmlTok.Yields tenv p out .data (toks ++ [.eof]) ∧ Ends env (atStart toks) d') ∧
      ∀ toks d', HtmlTok.Yields tenv p out .data (toks ++ [.eof]) → Ends env (atStart toks) d' → IsPage d' (P.reorder order) := by
  have h1 := page_writes ho hf hw hb h
  exact ⟨_, h1, fun out' h2 => writes_unique h2 h1, C107_text tenv hE env p hp _ (reorder_fits order hf) (reorder_writable ho hw)⟩

end Verif.TreeBuild
