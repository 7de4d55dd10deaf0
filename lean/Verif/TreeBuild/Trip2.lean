import Verif.TreeBuild.Trip

/-!
# C106: states of the parser while it reads a tree, and the actions that insert nodes
-/
namespace Verif.TreeBuild
open Verif Verif.Dom

/-! ## States -/

/-- The parser is in an element of the page: `above` are the names of the open elements, the innermost first. -/
structure Inside (s : St) (above : List Str) : Prop where
  arena : Arena s.doc
  foster : s.foster = false
  lf : s.ignoreLf = false
  queue : s.queue = []
  context : s.context = none
  tmodes : s.templateModes = []
  fin : s.finished = false
  tags : s.opened.map (tag s.doc) = above
  here : ∀ x ∈ s.opened, live s.doc x ∧ isHtml s.doc x = true
  nodup : s.opened.Nodup
  stack : s.opened ≠ []
  act : (s.active.filterMap id).Sublist s.opened
  form : "form".toList ∉ above → s.form = none
  plain : "template".toList ∉ above

/-- what stays as it is in a page without templates -/
structure Steady (s s' : St) : Prop where
  foster : s'.foster = s.foster
  lf : s'.ignoreLf = s.ignoreLf
  queue : s'.queue = s.queue
  context : s'.context = s.context
  tmodes : s'.templateModes = s.templateModes
  fin : s'.finished = s.finished
  head : s'.head = s.head

theorem Steady.refl (s : St) : Steady s s := ⟨rfl, rfl, rfl, rfl, rfl, rfl, rfl⟩

theorem Steady.trans {a b c : St} (h : Steady a b) (h' : Steady b c) : Steady a c :=
  ⟨h'.foster.trans h.foster, h'.lf.trans h.lf, h'.queue.trans h.queue, h'.context.trans h.context, h'.tmodes.trans h.tmodes,
   h'.fin.trans h.fin, h'.head.trans h.head⟩

/-- entries may go from the list of active formatting elements, but not past a marker -/
structure Trim (a a' : List (Option Nat)) : Prop where
  sub : a'.Sublist a
  marker : afterMarker a' = afterMarker a

theorem Trim.refl (a : List (Option Nat)) : Trim a a := ⟨List.Sublist.refl a, rfl⟩

theorem Trim.trans {a b c : List (Option Nat)} (h : Trim a b) (h' : Trim b c) : Trim a c :=
  ⟨h'.sub.trans h.sub, h'.marker.trans h.marker⟩

/-- the parser has read something that is now below the current node -/
structure After (s s' : St) (new : List Nat) : Prop where
  steady : Steady s s'
  mode : s'.mode = s.mode
  opened : s'.opened = s.opened
  form : s'.form = s.form
  act : Trim s.active s'.active
  grow : Grow s.doc s'.doc (current s) new

theorem Inside.cur {s : St} {above : List Str} (h : Inside s above) : current s ∈ s.opened := by
  unfold current
  cases ho : s.opened with
  | nil => exact absurd ho h.stack
  | cons x r => simp

theorem Inside.lt {s : St} {above : List Str} (h : Inside s above) {x : Nat} (hx : x ∈ s.opened) : x < s.doc.nextId :=
  h.arena.lt (h.here x hx).1

theorem Inside.tag_mem {s : St} {above : List Str} (h : Inside s above) {x : Nat} (hx : x ∈ s.opened) : tag s.doc x ∈ above := by
  rw [← h.tags]; exact List.mem_map_of_mem hx

theorem Inside.curTag {s : St} {above : List Str} (h : Inside s above) : above.head? = some (curTag s) := by
  rw [← h.tags]
  unfold TreeBuild.curTag current
  cases ho : s.opened with
  | nil => exact absurd ho h.stack
  | cons x r => simp

theorem Grow.isHtml {d d' : Doc} {p : Nat} {new : List Nat} (h : Grow d d' p new) {j : Nat} (hj : j < d.nextId) :
    isHtml d' j = isHtml d j := by unfold TreeBuild.isHtml; rw [h.ns hj]

/-- more nodes below one of the open elements -/
theorem Inside.grow {s s' : St} {above : List Str} (h : Inside s above) (hs : Steady s s') (ho : s'.opened = s.opened)
    (hf : s'.form = s.form) (ha : s'.active.Sublist s.active) {p : Nat} {new : List Nat} (hg : Grow s.doc s'.doc p new) :
    Inside s' above where
  arena := hg.arena
  foster := hs.foster.trans h.foster
  lf := hs.lf.trans h.lf
  queue := hs.queue.trans h.queue
  context := hs.context.trans h.context
  tmodes := hs.tmodes.trans h.tmodes
  fin := hs.fin.trans h.fin
  tags := by
    rw [ho, ← h.tags]
    exact List.map_congr_left fun x hx => hg.tag (h.lt hx)
  here := fun x hx => by
    rw [ho] at hx
    obtain ⟨h1, h2⟩ := h.here x hx
    exact ⟨(hg.live (h.lt hx)).2 h1, by rw [hg.isHtml (h.lt hx)]; exact h2⟩
  nodup := by rw [ho]; exact h.nodup
  stack := by rw [ho]; exact h.stack
  act := by rw [ho]; exact (ha.filterMap id).trans h.act
  form := fun hn => by rw [hf]; exact h.form hn
  plain := h.plain

theorem After.ready {s s' : St} {new : List Nat} (h : After s s' new) {above : List Str} (hr : Inside s above) : Inside s' above :=
  hr.grow h.steady h.opened h.form h.act.sub h.grow

theorem After.refl {s : St} {above : List Str} (h : Inside s above) : After s s [] :=
  ⟨Steady.refl s, rfl, rfl, rfl, Trim.refl _, Grow.refl h.arena _⟩

theorem After.current {s s' : St} {new : List Nat} (h : After s s' new) : current s' = current s := by
  unfold TreeBuild.current; rw [h.opened]

theorem After.trans {a b c : St} {l m : List Nat} (h : After a b l) (h' : After b c m) : After a c (l ++ m) :=
  ⟨h.steady.trans h'.steady, h'.mode.trans h.mode, h'.opened.trans h.opened, h'.form.trans h.form, h.act.trans h'.act,
   h.grow.trans (by rw [← h.current]; exact h'.grow)⟩

/-- the state without what a handler has asked of the tokenizer -/
def hush (s : St) : St := { s with switch := none }

theorem Inside.hush {s : St} {above : List Str} (h : Inside s above) : Inside (hush s) above :=
  ⟨h.arena, h.foster, h.lf, h.queue, h.context, h.tmodes, h.fin, h.tags, h.here, h.nodup, h.stack, h.act, h.form, h.plain⟩

theorem After.hush {s s' : St} {new : List Nat} (h : After (hush s) s' new) : After s s' new :=
  ⟨⟨h.steady.foster, h.steady.lf, h.steady.queue, h.steady.context, h.steady.tmodes, h.steady.fin, h.steady.head⟩, h.mode, h.opened,
   h.form, h.act, h.grow⟩

/-- a new element is open -/
theorem Inside.push {s s' : St} {above : List Str} (h : Inside s above) (hs : Steady s s') {n : Str} {as : Attrs}
    (hA : Added s.doc s'.doc (current s) (elementData n htmlNs as)) (ho : s'.opened = s.doc.nextId :: s.opened)
    (ha : (s'.active.filterMap id).Sublist s'.opened) (hf : n ≠ "form".toList → s'.form = s.form)
    (hn : n ≠ "template".toList) : Inside s' (n :: above) where
  arena := hA.arena
  foster := hs.foster.trans h.foster
  lf := hs.lf.trans h.lf
  queue := hs.queue.trans h.queue
  context := hs.context.trans h.context
  tmodes := hs.tmodes.trans h.tmodes
  fin := hs.fin.trans h.fin
  tags := by
    rw [ho, List.map_cons]
    congr 1
    · unfold tag elem; rw [hA.new]; rfl
    · rw [← h.tags]
      exact List.map_congr_left fun x hx => hA.grow.tag (h.lt hx)
  here := fun x hx => by
    rw [ho, List.mem_cons] at hx
    rcases hx with rfl | hx
    · exact ⟨by unfold live; rw [hA.new]; rfl, by unfold isHtml ns elem; rw [hA.new]; simp [elemOf, elementData]⟩
    · obtain ⟨h1, h2⟩ := h.here x hx
      exact ⟨(hA.grow.live (h.lt hx)).2 h1, by rw [hA.grow.isHtml (h.lt hx)]; exact h2⟩
  nodup := by
    rw [ho, List.nodup_cons]
    exact ⟨fun hx => Nat.lt_irrefl _ (h.lt hx), h.nodup⟩
  stack := by rw [ho]; exact List.cons_ne_nil _ _
  act := ha
  form := fun hn' => by
    rw [List.mem_cons, not_or] at hn'
    rw [hf (fun h => hn'.1 h.symm)]; exact h.form hn'.2
  plain := by
    rw [List.mem_cons, not_or]
    exact ⟨fun h => hn h.symm, h.plain⟩

/-! ## Inserting -/

theorem elem_register {d : Doc} (data : Data) {x : Nat} (hx : x < d.nextId) : elem (register d data).1 x = elem d x := by
  unfold elem; rw [nodeAt_register, if_neg (by omega)]

theorem placeFor_last {s : St} (hf : s.foster = false) (ht : is (tag s.doc (current s)) "template" = false) :
    placeFor s none = .lastChild (current s) := by
  unfold placeFor
  simp only [Option.getD_none, hf, Bool.false_and, Bool.false_eq_true, if_false, ht]

theorem is_not {n : Str} {k : String} (h : n ≠ k.toList) : is n k = false := by unfold is; exact decide_eq_false h

theorem Inside.notTemplate {s : St} {above : List Str} (h : Inside s above) : is (tag s.doc (current s)) "template" = false :=
  is_not fun he => h.plain (by rw [← he]; exact h.tag_mem h.cur)

theorem attach_step {d d' : Doc} {n p : Nat} {pos : Option Nat} (h : attach d n p pos = some d') :
    step d (.attach n p pos) = some (d', none) := by show (attach d n p pos).map _ = _; rw [h]; rfl

/-- a new node put at the appropriate place -/
theorem insertHere_new {s : St} {above : List Str} (h : Inside s above) (data : Data) :
    ∃ d1, insertHere s.doc.nextId none { s with doc := (register s.doc data).1 } = some ((), { s with doc := d1 }) ∧
      Added s.doc d1 (current s) data := by
  obtain ⟨d1, h1, hA⟩ := add_ok h.arena (h.here _ h.cur).1 data
  refine ⟨d1, ?_, hA⟩
  have hp : placeFor { s with doc := (register s.doc data).1 } none = .lastChild (current s) := by
    refine placeFor_last (s := { s with doc := (register s.doc data).1 }) h.foster ?_
    show is (tag (register s.doc data).1 (current s)) "template" = false
    unfold tag
    rw [elem_register _ (h.lt h.cur)]
    exact h.notTemplate
  unfold insertHere
  rw [hp]
  show (dom (.attach s.doc.nextId (current s) none) { s with doc := (register s.doc data).1 }).map _ = _
  rw [dom_eq (attach_step h1)]
  rfl

/-- the state with a new element on the stack -/
def opening (s : St) (d1 : Doc) : St := { s with doc := d1, opened := s.doc.nextId :: s.opened }

theorem insertHtml_new {s : St} {above : List Str} (h : Inside s above) (n : Str) (as : Attrs) :
    ∃ d1, insertHtml n as s = some (s.doc.nextId, opening s d1) ∧ Added s.doc d1 (current s) (elementData n htmlNs as) := by
  obtain ⟨d1, h1, hA⟩ := insertHere_new h (elementData n htmlNs as)
  refine ⟨d1, ?_, hA⟩
  unfold insertHtml insertElement
  rw [bind_some (dom_new rfl)]
  rw [show (register s.doc (elementData n htmlNs as)).2 = s.doc.nextId from rfl]
  rw [bind_some h1]
  rfl

theorem insert_new {s : St} {above : List Str} (h : Inside s above) (n : Str) (as : Attrs) :
    ∃ d1, insert_ n as s = some ((), opening s d1) ∧ Added s.doc d1 (current s) (elementData n htmlNs as) := by
  obtain ⟨d1, h1, hA⟩ := insertHtml_new h n as
  exact ⟨d1, by unfold insert_; rw [bind_some h1]; rfl, hA⟩

theorem insertVoid_new {s : St} {above : List Str} (h : Inside s above) (n : Str) (as : Attrs) :
    ∃ d1, insertVoid n as s = some ((), { s with doc := d1 }) ∧ Added s.doc d1 (current s) (elementData n htmlNs as) := by
  obtain ⟨d1, h1, hA⟩ := insert_new h n as
  exact ⟨d1, by unfold insertVoid; rw [bind_some h1]; rfl, hA⟩

theorem insertComment_new {s : St} {above : List Str} (h : Inside s above) (v : Str) :
    ∃ d1, insertComment v s = some ((), { s with doc := d1 }) ∧ Added s.doc d1 (current s) (.comment v) := by
  obtain ⟨d1, h1, hA⟩ := insertHere_new h (.comment v)
  refine ⟨d1, ?_, hA⟩
  unfold insertComment
  rw [bind_some (dom_new rfl)]
  exact h1

/-- the current node does not end with a text -/
def NoText (s : St) : Prop := ∀ i, (children s.doc (current s)).getLast? = some i → isText s.doc i = false

theorem insertText_new {s : St} {above : List Str} (h : Inside s above) (hN : NoText s) {v : Str} (hv : v ≠ []) :
    ∃ d1, insertText v s = some ((), { s with doc := d1 }) ∧ Added s.doc d1 (current s) (.text v) := by
  obtain ⟨d1, h1, hA⟩ := add_ok h.arena (h.here _ h.cur).1 (.text v)
  refine ⟨d1, ?_, hA⟩
  unfold insertText
  rw [if_neg hv, placeFor_last h.foster h.notTemplate]
  show mergeText v ((children s.doc (current s)).getLast?) (current s) none s = _
  have hnew : newText v (current s) none s = some ((), { s with doc := d1 }) := by
    unfold newText
    rw [bind_some (dom_new rfl)]
    rw [show (register s.doc (.text v)).2 = s.doc.nextId from rfl]
    have : dom (.attach s.doc.nextId (current s) none) { s with doc := (register s.doc (.text v)).1 } =
        some (0, { s with doc := d1 }) := by
      rw [dom_eq (attach_step h1)]; rfl
    rw [bind_some this]
    rfl
  unfold mergeText
  cases hl : (children s.doc (current s)).getLast? with
  | none => exact hnew
  | some i => simp only [hN i hl, Bool.false_eq_true, if_false]; exact hnew

/-! ## Reading tokens -/

/-- the parser reads these tokens and is then in the other state -/
def Leads (env : Env) (s : St) (toks : List Token) (s' : St) : Prop :=
  ∀ rest, ∃ k, Loop.run env ⟨s, none, toks ++ rest⟩ k = some ⟨s', none, rest⟩

/-- after this token nothing has been put back, and the tokenizer has been asked for what the element needs -/
def Asked (t : Token) (s : St) : Prop := s.queue = [] ∧ s.switch = asks t

/-- the same, and the tokenizer is asked for the right things on the way -/
def Reads (env : Env) (s : St) (toks : List Token) (s' : St) : Prop :=
  Leads env s toks s' ∧ ∀ got t, got ++ [t] <+: toks → ∃ s1, Leads env s (got ++ [t]) s1 ∧ Asked t s1

theorem run_more (env : Env) {l l' : Loop} : ∀ {k : Nat}, Loop.run env l k = some l' → ∀ m,
    Loop.run env l (k + m) = Loop.run env l' m
  | 0, h, m => by cases h; rw [Nat.zero_add]
  | k + 1, h, m => by
    rw [show k + 1 + m = k + m + 1 from by omega]
    change (Loop.step env l).bind (fun l' => Loop.run env l' k) = some l' at h
    show (Loop.step env l).bind (fun l' => Loop.run env l' (k + m)) = _
    cases hs : Loop.step env l with
    | none => rw [hs] at h; cases h
    | some l1 =>
      rw [hs] at h
      exact run_more env h m

theorem Reads.refl (env : Env) (s : St) : Reads env s [] s :=
  ⟨fun _ => ⟨0, rfl⟩, fun _ _ h => absurd h.length_le (by simp)⟩

theorem Leads.trans {env : Env} {a b c : St} {l m : List Token} (h : Leads env a l b) (h' : Leads env b m c) :
    Leads env a (l ++ m) c := by
  intro rest
  obtain ⟨k1, h1⟩ := h (m ++ rest)
  obtain ⟨k2, h2⟩ := h' rest
  exact ⟨k1 + k2, by rw [List.append_assoc, run_more env h1, h2]⟩

theorem Reads.trans {env : Env} {a b c : St} {l m : List Token} (h : Reads env a l b) (h' : Reads env b m c) :
    Reads env a (l ++ m) c := by
  refine ⟨h.1.trans h'.1, fun got t hp => ?_⟩
  rcases List.prefix_or_prefix_of_prefix hp (List.prefix_append l m) with h1 | ⟨m', h1⟩
  · exact h.2 got t h1
  · have h2 : m' <+: m := by rw [← h1] at hp; exact (List.prefix_append_right_inj l).1 hp
    rcases List.eq_nil_or_concat m' with rfl | ⟨g, x, rfl⟩
    · exact h.2 got t (by rw [← h1, List.append_nil]; exact List.prefix_refl l)
    · rw [List.concat_eq_append, ← List.append_assoc] at h1
      obtain ⟨rfl, h3⟩ := List.append_inj' h1 rfl
      cases h3
      obtain ⟨s1, e1, e2⟩ := h'.2 g t (by rw [List.concat_eq_append] at h2; exact h2)
      exact ⟨s1, by rw [List.append_assoc]; exact h.1.trans e1, e2⟩

theorem Reads.one {env : Env} {s s' : St} {t : Token} (h : Leads env s [t] s') (ha : Asked t s') : Reads env s [t] s' := by
  refine ⟨h, fun got u hp => ?_⟩
  have hl := hp.length_le
  have : got = [] := by
    rw [List.length_append, List.length_singleton, List.length_singleton] at hl
    exact List.eq_nil_of_length_eq_zero (by omega)
  subst this
  obtain ⟨r, hr⟩ := hp
  rw [List.nil_append, List.singleton_append, List.cons.injEq] at hr
  obtain ⟨rfl, _⟩ := hr
  exact ⟨s', h, ha⟩

/-- the current node is an HTML element, the queue is empty, and so on: what is needed to read one token as HTML -/
structure Plain (s : St) : Prop where
  fin : s.finished = false
  queue : s.queue = []
  lf : s.ignoreLf = false
  foreign : ∀ t, isForeign s t = false

theorem Inside.isPlain {s : St} {above : List Str} (h : Inside s above) : Plain s := by
  refine ⟨h.fin, h.queue, h.lf, fun t => ?_⟩
  have hc : adjustedCurrent s = current s := by unfold adjustedCurrent; rw [h.context]
  have hn : (ns s.doc (adjustedCurrent s)).getD htmlNs = htmlNs := by
    rw [hc]
    have := (h.here _ h.cur).2
    unfold isHtml at this
    rw [of_decide_eq_true this]; rfl
  unfold isForeign
  simp only [hn, if_true]
  cases s.opened.isEmpty <;> rfl

theorem skipLf_false (t : Token) : skipLf false t = t := by cases t <;> rfl

theorem processHtml_plain {env : Env} {s : St} (h : s.ignoreLf = false) (t : Token) :
    processHtml env t s = (byMode env s.mode t s).map fun r => (r.1.keep t, r.2) := by
  have hs : ({ s with ignoreLf := false } : St) = s := by cases s; cases h; rfl
  unfold processHtml
  rw [show ∀ (k : Bool → M Next), (ask (·.ignoreLf) >>= k) s = k s.ignoreLf s from fun _ => rfl]
  rw [show ∀ (k : Unit → M Next), (upd (fun s => { s with ignoreLf := false }) >>= k) s = k () { s with ignoreLf := false } from
    fun _ => rfl, hs]
  rw [show ∀ (k : Mode → M Next), (ask (·.mode) >>= k) s = k s.mode s from fun _ => rfl, h, skipLf_false]
  rw [bind_eq]
  cases byMode env s.mode t s <;> rfl

theorem next_plain {s : St} (h : Plain s) (t : Token) (rest : List Token) :
    Loop.next ⟨s, none, [t] ++ rest⟩ = ((t, false), ⟨hush s, none, rest⟩) := by
  have hf : Loop.fetch ⟨s, none, [t] ++ rest⟩ = (t, ⟨hush s, none, rest⟩) := by
    simp only [Loop.fetch, h.queue, hush, List.singleton_append]
  unfold Loop.next
  simp only [hf]
  rw [show isForeign (hush s) t = false from h.foreign t]

/-- one token that a handler has dealt with -/
theorem read_done {env : Env} {s s' : St} {t : Token} (h : Plain s) (hm : byMode env s.mode t (hush s) = some (.done, s'))
    (ha : Asked t s') : Reads env s [t] s' := by
  refine .one (fun rest => ?_) ha
  refine ⟨1, ?_⟩
  have hd : dispatch env (t, false) (hush s) = some (.done, s') := by
    show processHtml env t (hush s) = _
    rw [processHtml_plain (s := hush s) h.lf]
    show (byMode env s.mode t (hush s)).map _ = _
    rw [hm]; rfl
  have hn := next_plain h t rest
  unfold Loop.run Loop.step
  simp only [h.fin, Bool.false_eq_true, if_false, hn, hd]
  rfl

/-- one token that a handler wants processed again, and that is then dealt with -/
theorem read_again {env : Env} {s s1 s' : St} {t : Token} (h : Plain s) (hm : byMode env s.mode t (hush s) = some (.again, s1))
    (h1 : s1.ignoreLf = false) (hf : s1.finished = false) (hm' : byMode env s1.mode t s1 = some (.done, s'))
    (ha : Asked t s') : Reads env s [t] s' := by
  refine .one (fun rest => ?_) ha
  refine ⟨2, ?_⟩
  have hd : dispatch env (t, false) (hush s) = some (.other t, s1) := by
    show processHtml env t (hush s) = _
    rw [processHtml_plain (s := hush s) h.lf]
    show (byMode env s.mode t (hush s)).map _ = _
    rw [hm]; rfl
  have hd' : dispatch env (t, false) s1 = some (.done, s') := by
    show processHtml env t s1 = _
    rw [processHtml_plain h1, hm']; rfl
  have hn := next_plain h t rest
  have hs : Loop.step env ⟨s, none, [t] ++ rest⟩ = some ⟨s1, some (t, false), rest⟩ := by
    unfold Loop.step
    simp only [h.fin, Bool.false_eq_true, if_false, hn, hd]
    rfl
  have hs' : Loop.step env ⟨s1, some (t, false), rest⟩ = some ⟨s', none, rest⟩ := by
    unfold Loop.step Loop.next
    simp only [hf, Bool.false_eq_true, if_false, hd']
    rfl
  unfold Loop.run Loop.run
  rw [hs, Option.bind_some, hs']
  rfl

end Verif.TreeBuild
