import Verif.TreeBuild.Trip3

/-!
# C106: opening and closing elements in flow content
-/
namespace Verif.TreeBuild
open Verif Verif.Dom

/-! ## Small steps -/

theorem fin_some {m : M Unit} {s s' : St} (h : m s = some ((), s')) : fin m s = some (.done, s') := by
  unfold fin; rw [bind_some h]; rfl

theorem re_some {m : M Unit} {s s' : St} (h : m s = some ((), s')) : re m s = some (.again, s') := by
  unfold re; rw [bind_some h]; rfl

theorem when_not {c : St → Bool} {m : M Unit} {s : St} (h : c s = false) : whenM c m s = some ((), s) := by
  show (if c s = true then m s else some ((), s)) = _
  rw [h]; rfl

theorem when_yes {c : St → Bool} {m : M Unit} {s : St} (h : c s = true) : whenM c m s = m s := by
  show (if c s = true then m s else some ((), s)) = _
  rw [h]; rfl

theorem if_yes {α : Type} {c : St → Bool} {a b : M α} {s : St} (h : c s = true) : ifM c a b s = a s := by
  show (if c s = true then a s else b s) = _
  rw [h]; rfl

theorem if_not {α : Type} {c : St → Bool} {a b : M α} {s : St} (h : c s = false) : ifM c a b s = b s := by
  show (if c s = true then a s else b s) = _
  rw [h]; rfl

/-- an element that is not open is not in scope -/
theorem inScopeOf_absent {d : Doc} {t : Str} {sc : Scope} : ∀ {l : List Nat}, (∀ x ∈ l, tag d x ≠ t) → inScopeOf d t sc l = false
  | [], _ => rfl
  | x :: r, h => by
    unfold inScopeOf
    have h1 : decide (tag d x = t) = false := decide_eq_false (h x (by simp))
    rw [h1]
    have h2 := inScopeOf_absent (sc := sc) (l := r) (fun y hy => h y (by simp [hy]))
    rw [h2]
    simp

theorem Inside.absent {s : St} {above : List Str} (h : Inside s above) {t : Str} (ht : t ∉ above) {x : Nat} (hx : x ∈ s.opened) :
    tag s.doc x ≠ t := fun he => ht (he ▸ h.tag_mem hx)

theorem Inside.noP {s : St} {above : List Str} (h : Inside s above) (hp : "p".toList ∉ above) : closePInScope s = some ((), s) :=
  when_not (show inScopeOf s.doc "p".toList .button s.opened = false from inScopeOf_absent fun _ hx => h.absent hp hx)

theorem closedActive_none {opened : List Nat} : ∀ {l : List (Option Nat)}, (l.filterMap id).Sublist opened →
    closedActive opened l = []
  | [], _ => rfl
  | none :: r, _ => rfl
  | some i :: r, h => by
    have : i ∈ opened := h.subset (by simp)
    show (if i ∈ opened then [] else _) = []
    rw [if_pos this]

theorem Inside.rebuilt {s : St} {above : List Str} (h : Inside s above) : reconstruct s = some ((), s) := by
  unfold reconstruct
  simp only [closedActive_none h.act]
  rfl

/-- the top of the stack -/
structure Top (s : St) (e : Nat) (rest : List Nat) (n : Str) : Prop where
  opened : s.opened = e :: rest
  name : tag s.doc e = n
  html : isHtml s.doc e = true
  here : (elem s.doc e).isNone = false
  fresh : e ∉ rest

theorem Inside.top {s : St} {above : List Str} {n : Str} (h : Inside s (n :: above)) {e : Nat} {rest : List Nat}
    (ho : s.opened = e :: rest) : Top s e rest n where
  opened := ho
  name := by
    have := h.tags
    rw [ho, List.map_cons] at this
    exact (List.cons.inj this).1
  html := (h.here e (by rw [ho]; simp)).2
  here := by
    have := (h.here e (by rw [ho]; simp)).2
    unfold isHtml ns at this
    cases he : elem s.doc e with
    | none => rw [he] at this; simp at this
    | some x => rfl
  fresh := by
    have := h.nodup
    rw [ho, List.nodup_cons] at this
    exact this.1

section
variable {s : St} {e : Nat} {rest : List Nat} {n : Str}

theorem Top.inScope (h : Top s e rest n) (sc : Scope) : inScope n sc s = true := by
  unfold TreeBuild.inScope
  rw [h.opened]
  unfold inScopeOf
  simp [h.here, h.name, h.html]

theorem Top.implied (h : Top s e rest n) {except : Option Str} {th : Bool}
    (hi : except = some n ∨ oneOf n (if th then impliedThorough else impliedTags) = false) :
    implied except th s = some ((), s) := by
  have : isImplied s.doc except th e = false := by
    unfold isImplied
    rw [h.name]
    rcases hi with hi | hi
    · rw [hi]; simp
    · rw [hi]; simp
  have hd : s.opened.dropWhile (isImplied s.doc except th) = s.opened := by
    rw [h.opened, List.dropWhile_cons_of_neg (by rw [this]; simp)]
  unfold TreeBuild.implied upd
  simp only [hd]

/-- the state with the top of the stack gone -/
def closing (s : St) (rest : List Nat) : St := { s with opened := rest }

theorem Top.popNamed (h : Top s e rest n) : popNamed n s = some ((), closing s rest) := by
  have : popTo (fun i => decide (tag s.doc i = n) && isHtml s.doc i) s.opened = rest := by
    rw [h.opened]; simp [popTo, h.name, h.html]
  show some ((), ({ s with opened := popTo (fun i => decide (tag s.doc i = n) && isHtml s.doc i) s.opened } : St)) = _
  rw [this]; rfl

theorem Top.popAny (h : Top s e rest n) {l : List String} (hl : oneOf n l = true) : popAny l s = some ((), closing s rest) := by
  have : popTo (fun i => oneOf (tag s.doc i) l) s.opened = rest := by
    rw [h.opened]; simp [popTo, h.name, hl]
  show some ((), ({ s with opened := popTo (fun i => oneOf (tag s.doc i) l) s.opened } : St)) = _
  rw [this]; rfl

theorem Top.pop (h : Top s e rest n) : pop s = some ((), closing s rest) := by
  show some ((), ({ s with opened := s.opened.tail } : St)) = _
  rw [h.opened]; rfl

theorem Top.endBlock (h : Top s e rest n) {sc : Scope} {except : Option Str}
    (hi : except = some n ∨ oneOf n impliedTags = false) {after : M Unit} {s' : St}
    (ha : after (closing s rest) = some ((), s')) : endBlock n sc except after s = some (.done, s') := by
  unfold TreeBuild.endBlock
  rw [if_yes (h.inScope sc)]
  apply fin_some
  rw [bind_some (h.implied (th := false) hi)]
  rw [bind_some h.popNamed]
  exact ha

theorem Top.otherEnd (h : Top s e rest n) : otherEndTag n s = some ((), closing s rest) := by
  unfold otherEndTag
  rw [h.opened]
  unfold endTagLoop
  rw [if_pos h.name, h.implied (th := false) (Or.inl rfl)]
  show (popNode e s.opened).map _ = _
  rw [h.opened]
  unfold popNode
  rw [if_pos rfl]
  rfl

end

/-! ## Modes -/

def flowMode (m : Mode) : Prop := m = .inBody ∨ m = .inCell ∨ m = .inCaption

/-- the insertion mode is the one for this kind of content -/
def At (s : St) : Where → Prop
  | .flow => flowMode s.mode ∧ resetMode s s.opened = s.mode
  | .head => s.mode = .inHead
  | .table => s.mode = .inTable
  | .rows => s.mode = .inTableBody
  | .cells => s.mode = .inRow
  | .columns => s.mode = .inColumnGroup

theorem selectMode_congr {d d' : Doc} : ∀ {l : List Nat}, (∀ x ∈ l, tag d' x = tag d x) → selectMode d' l = selectMode d l
  | [], _ => rfl
  | x :: r, h => by
    unfold selectMode
    rw [h x (by simp), selectMode_congr (l := r) fun y hy => h y (by simp [hy])]

theorem modeFor_congr {s s' : St} {last : Bool} {x : Nat} {r : List Nat} (hx : tag s'.doc x = tag s.doc x)
    (hr : ∀ y ∈ r, tag s'.doc y = tag s.doc y) (ht : s'.templateModes = s.templateModes) (hh : s'.head = s.head) :
    modeFor s' last x r = modeFor s last x r := by
  unfold modeFor
  simp only [hx, selectMode_congr hr, ht, hh]

theorem resetMode_congr {s s' : St} (ht : s'.templateModes = s.templateModes) (hh : s'.head = s.head)
    (hc : s.context = none) (hc' : s'.context = none) : ∀ {l : List Nat}, (∀ x ∈ l, tag s'.doc x = tag s.doc x) →
    resetMode s' l = resetMode s l
  | [], _ => rfl
  | [x], h => by
    unfold resetMode
    rw [hc, hc']
    simp only [Option.getD_none]
    rw [modeFor_congr (h x (by simp)) (by simp) ht hh]
  | x :: y :: r, h => by
    unfold resetMode
    rw [modeFor_congr (h x (by simp)) (fun z hz => h z (by simp [hz])) ht hh,
      resetMode_congr ht hh hc hc' (l := y :: r) fun z hz => h z (by simp [hz])]

theorem Inside.reset_eq {s s' : St} {above : List Str} (h : Inside s above) (hs : Steady s s') {p : Nat} {new : List Nat}
    (hg : Grow s.doc s'.doc p new) : resetMode s' s.opened = resetMode s s.opened :=
  resetMode_congr hs.tmodes hs.head h.context (hs.context.trans h.context) fun _ hx => hg.tag (h.lt hx)

theorem At.after {s s' : St} {w : Where} {above : List Str} {new : List Nat} (hA : At s w) (hR : Inside s above)
    (h : After s s' new) : At s' w := by
  cases w with
  | flow =>
    refine ⟨by rw [h.mode]; exact hA.1, ?_⟩
    rw [h.opened, hR.reset_eq h.steady h.grow, h.mode]
    exact hA.2
  | _ => exact h.mode.trans hA

/-- names that do not decide the insertion mode -/
theorem modeFor_none {s : St} {x : Nat} {r : List Nat} (h : tag s.doc x ∉ notFlow) : modeFor s false x r = none := by
  have a : ∀ {l : List String}, (∀ m ∈ names l, m ∈ notFlow) → oneOf (tag s.doc x) l = false := fun hl => oneOf_avoid h hl
  have i : ∀ {k : String}, k.toList ∈ notFlow → is (tag s.doc x) k = false := fun hk => is_avoid h hk
  have h1 : is (tag s.doc x) "select" = false := i (by decide +kernel)
  have h2 : oneOf (tag s.doc x) ["td", "th"] = false := a (by decide +kernel)
  have h3 : is (tag s.doc x) "tr" = false := i (by decide +kernel)
  have h4 : oneOf (tag s.doc x) ["tbody", "thead", "tfoot"] = false := a (by decide +kernel)
  have h5 : is (tag s.doc x) "caption" = false := i (by decide +kernel)
  have h6 : is (tag s.doc x) "colgroup" = false := i (by decide +kernel)
  have h7 : is (tag s.doc x) "table" = false := i (by decide +kernel)
  have h8 : is (tag s.doc x) "template" = false := i (by decide +kernel)
  have h9 : is (tag s.doc x) "head" = false := i (by decide +kernel)
  have h10 : is (tag s.doc x) "body" = false := i (by decide +kernel)
  have h11 : is (tag s.doc x) "frameset" = false := i (by decide +kernel)
  have h12 : is (tag s.doc x) "html" = false := i (by decide +kernel)
  unfold modeFor
  simp only [h1, h2, h3, h4, h5, h6, h7, h8, h9, h10, h11, h12, Bool.false_and, Bool.false_eq_true, if_false]

/-! ## Tokens in flow content -/

theorem flow_text {env : Env} {m : Mode} (hm : flowMode m) (v : Str) : byMode env m (.text v) = inBody env (.text v) := by
  rcases hm with rfl | rfl | rfl <;> rfl

theorem flow_comment {env : Env} {m : Mode} (hm : flowMode m) (v : Str) : byMode env m (.comment v) = fin (insertComment v) := by
  rcases hm with rfl | rfl | rfl <;> rfl

theorem flow_start {env : Env} {m : Mode} (hm : flowMode m) {n : Str} (hn : oneOf n cellBreakers = false) (sc : Bool) (as : Attrs) :
    byMode env m (.startTag n sc as) = inBodyStart env n sc as := by
  rcases hm with rfl | rfl | rfl
  · rfl
  · show (if oneOf n cellBreakers then _ else _) = _
    rw [hn]; rfl
  · show (if oneOf n cellBreakers then _ else _) = _
    rw [hn]; rfl

theorem flow_end {env : Env} {m : Mode} (hm : flowMode m) {n : Str} (hn : n ∉ notFlow) (hv : n ∉ voids) :
    byMode env m (.endTag n) = inBodyEnd n := by
  have h' : n ∉ notFlow ++ voids := by rw [List.mem_append, not_or]; exact ⟨hn, hv⟩
  have a : ∀ {l : List String}, (∀ m ∈ names l, m ∈ notFlow ++ voids) → oneOf n l = false := fun hl => oneOf_avoid h' hl
  have i : ∀ {k : String}, k.toList ∈ notFlow ++ voids → is n k = false := fun hk => is_avoid h' hk
  rcases hm with rfl | rfl | rfl
  · rfl
  · have h1 : oneOf n ["th", "td"] = false := a (by decide +kernel)
    have h2 : oneOf n ["body", "caption", "col", "colgroup", "html"] = false := a (by decide +kernel)
    have h3 : oneOf n ["table", "tbody", "tfoot", "thead", "tr"] = false := a (by decide +kernel)
    simp only [byMode, inCell, h1, h2, h3, Bool.false_eq_true, if_false]
    rfl
  · have h1 : is n "caption" = false := i (by decide +kernel)
    have h2 : is n "table" = false := i (by decide +kernel)
    have h3 : oneOf n ["body", "col", "colgroup", "html", "tbody", "td", "tfoot", "th", "thead", "tr"] = false := a (by decide +kernel)
    simp only [byMode, inCaption, h1, h2, h3, Bool.false_eq_true, if_false]
    rfl

end Verif.TreeBuild
