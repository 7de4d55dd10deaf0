import Verif.Interact.Props

/-! # C129: the order of the focus -/

namespace Verif.Interact

theorem focusable_iff (d : Doc) (n : Nat) : isFocusable d n = true ↔ CanFocus d n := by
  unfold isFocusable CanFocus
  cases he : d.isElement n with
  | false => simp
  | true =>
    cases hd : d.attr n "disabled" with
    | some v => simp
    | none =>
      simp only [Bool.not_true, Option.isSome_none, Bool.or_self, Bool.false_eq_true, if_false, true_and]
      cases ht : d.attr n "tabindex" with
      | some s =>
        cases hi : d.index s with
        | none => simp [hi]
        | some i => simp [hi]
      | none =>
        simp only [reduceCtorEq, false_and, exists_const, false_or, true_and]
        cases htag : d.tag n with
        | none => simp [editable_iff]
        | some t =>
          simp only [Option.some.injEq]
          by_cases h1 : t = "a"
          · subst h1
            simp [Option.isSome_iff_ne_none]
          · by_cases h2 : t = "area"
            · subst h2
              simp [Option.isSome_iff_ne_none]
            · by_cases h3 : t = "input"
              · subst h3
                cases hy : d.attr n "type" with
                | none => simp
                | some ty => simp
              · by_cases h4 : t = "textarea" ∨ t = "select" ∨ t = "button"
                · simp only [h1, h2, h3, h4, or_self, if_false, if_true, true_iff, false_and, false_or]
                  rcases h4 with h | h | h <;> simp [h]
                · simp only [not_or] at h4
                  simp [h1, h2, h3, h4, editable_iff]

theorem push_all (l s : List Nat) : l.reverse.foldl (fun s c => c :: s) s = l ++ s := by
  induction l generalizing s with
  | nil => rfl
  | cons a l ih => simp [List.foldl_append, ih]

theorem collect_order (d : Doc) (ns l : List Nat) (h : Order d ns l) : ∀ (stack out : List Nat) (more : Nat),
    collect d (l.length + more) (ns ++ stack) out = collect d more stack (out ++ l.filter (isFocusable d)) := by
  induction h with
  | nil => intro stack out more; simp
  | @cons n ns l m _ _ ih1 ih2 =>
    intro stack out more
    have hl : (n :: (l ++ m)).length + more = (l.length + (m.length + more)) + 1 := by simp; omega
    rw [hl, List.cons_append, collect, push_all, ih1, ih2]
    congr 1
    cases hf : isFocusable d n <;> simp [hf]

open Classical in
/-- **C129** The list that the Tab key walks has exactly the elements of the document that can be
focused, in document order. -/
theorem C129_order (d : Doc) (l : List Nat) (h : Order d [d.root] l) (more : Nat) :
    focusableElements d (l.length + more) = some (l.filter (fun n => decide (CanFocus d n))) := by
  have h1 := collect_order d [d.root] l h [] [] more
  have h2 : l.filter (fun n => decide (CanFocus d n)) = l.filter (isFocusable d) := by
    apply List.filter_congr
    intro n _
    cases hf : isFocusable d n with
    | true => simpa using (focusable_iff d n).1 hf
    | false =>
      simp only [decide_eq_false_iff_not]
      intro hc
      rw [(focusable_iff d n).2 hc] at hf; cases hf
  rw [h2, focusableElements]
  simp only [List.append_nil, List.nil_append] at h1
  rw [h1]
  cases more <;> rfl

example : Order page [page.root] [0, 1, 2, 3] :=
  .cons (d := page) (n := 0) (ns := []) (l := [1, 2, 3]) (m := [])
    (.cons (d := page) (n := 1) (ns := [3]) (l := [2]) (m := [3])
      (.cons (d := page) (n := 2) (ns := []) (l := []) (m := []) .nil .nil)
      (.cons (d := page) (n := 3) (ns := []) (l := []) (m := []) .nil .nil)) .nil
example : focusableElements page 4 = some [1] := by decide

theorem position_get (order : List Nat) (hn : order.Nodup) (i : Nat) (hi : i < order.length) :
    position order[i] order = some i := by
  induction order generalizing i with
  | nil => simp at hi
  | cons x xs ih =>
    obtain ⟨h1, h2⟩ := List.nodup_cons.1 hn
    cases i with
    | zero => simp [position]
    | succ i =>
      have hi' : i < xs.length := by simpa using hi
      have hne : x ≠ xs[i] := fun he => h1 (he ▸ List.getElem_mem hi')
      simp [position, hne, ih h2 i hi']

theorem step_fwd (order : List Nat) (hn : order.Nodup) (i : Nat) (hi : i < order.length) :
    focusStep order order[i]? false = order[(i + 1) % order.length]? := by
  have he : order.isEmpty = false := by cases order <;> simp_all
  unfold focusStep
  rw [he, List.getElem?_eq_getElem hi]
  simp [position_get order hn i hi]

theorem step_back (order : List Nat) (hn : order.Nodup) (i : Nat) (hi : i < order.length) :
    focusStep order order[i]? true = order[(i + order.length - 1) % order.length]? := by
  have he : order.isEmpty = false := by cases order <;> simp_all
  unfold focusStep
  rw [he, List.getElem?_eq_getElem hi]
  simp [position_get order hn i hi]

theorem presses_fwd (order : List Nat) (hn : order.Nodup) (k : Nat) : ∀ i, i < order.length →
    presses order false k order[i]? = order[(i + k) % order.length]? := by
  induction k with
  | zero => intro i hi; rw [presses, Nat.add_zero, Nat.mod_eq_of_lt hi]
  | succ k ih =>
    intro i hi
    rw [presses, step_fwd order hn i hi, ih _ (Nat.mod_lt _ (by omega)), Nat.mod_add_mod]
    congr 2; omega

theorem presses_back (order : List Nat) (hn : order.Nodup) (k : Nat) : ∀ j, j < order.length →
    presses order true k order[order.length - 1 - j]? = order[order.length - 1 - (j + k) % order.length]? := by
  induction k with
  | zero => intro j hj; rw [presses, Nat.add_zero, Nat.mod_eq_of_lt hj]
  | succ k ih =>
    intro j hj
    rw [presses, step_back order hn _ (by omega)]
    have : (order.length - 1 - j + order.length - 1) % order.length
        = order.length - 1 - (j + 1) % order.length := by
      by_cases hl : j + 1 < order.length
      · rw [Nat.mod_eq_of_lt hl]
        have : order.length - 1 - j + order.length - 1 = (order.length - 1 - (j + 1)) + order.length := by omega
        rw [this, Nat.add_mod_right, Nat.mod_eq_of_lt (by omega)]
      · have he : j + 1 = order.length := by omega
        rw [he, Nat.mod_self]
        have : order.length - 1 - j + order.length - 1 = order.length - 1 := by omega
        rw [this, Nat.mod_eq_of_lt (by omega)]; omega
    rw [this, ih _ (Nat.mod_lt _ (by omega)), Nat.mod_add_mod]
    congr 3; omega

/-- **C129** From no focus, or a focus that has left the page, so many presses of Tab lead to the
elements in turn, from the first and round again after the last; with Shift, from the last and back. -/
theorem C129_cycle (order : List Nat) (hne : order ≠ []) (hn : order.Nodup) (cur : Option Nat)
    (hc : ∀ c, cur = some c → c ∉ order) (k : Nat) :
    presses order false (k + 1) cur = order[k % order.length]? ∧
    presses order true (k + 1) cur = order[order.length - 1 - k % order.length]? := by
  have hpos : 0 < order.length := List.length_pos_iff.2 hne
  have he : order.isEmpty = false := by cases order <;> simp_all
  have hp : ∀ (c : Nat) (l : List Nat), c ∉ l → position c l = none := by
    intro c l
    induction l with
    | nil => intro _; rfl
    | cons x xs ih =>
      intro h
      simp only [List.mem_cons, not_or] at h
      have hx : x ≠ c := fun e => h.1 e.symm
      simp [position, hx, ih h.2]
  have hb : cur.bind (fun c => position c order) = none := by
    cases cur with
    | none => rfl
    | some c => exact hp c order (hc c rfl)
  constructor
  · rw [presses]
    have : focusStep order cur false = order[0]? := by simp [focusStep, he, hb]
    rw [this, presses_fwd order hn k 0 hpos, Nat.zero_add]
  · rw [presses]
    have : focusStep order cur true = order[order.length - 1 - 0]? := by
      simp [focusStep, he, hb, List.getLast?_eq_getElem?]
    rw [this, presses_back order hn k 0 hpos, Nat.zero_add]

example : presses [4, 7, 9] false 5 none = some 7 ∧ presses [4, 7, 9] true 2 (some 1) = some 7 := by decide

/-- **C129** From every element Tab leads to the next in the order, or from the last to the first, and
Shift+Tab undoes Tab and Tab undoes Shift+Tab. The focus never leaves the elements that can have it;
where there are none, it is taken away. -/
theorem C129_step (order : List Nat) (hn : order.Nodup) :
    (∀ (i : Nat) (h : i + 1 < order.length), focusStep order (some order[i]) false = some order[i + 1]) ∧
    (∀ h : order ≠ [], focusStep order (some (order.getLast h)) false = some (order.head h)) ∧
    (∀ c ∈ order, ∀ b, focusStep order (focusStep order (some c) b) (!b) = some c) ∧
    (∀ cur b c, focusStep order cur b = some c → c ∈ order) ∧
    (∀ cur b, focusStep order cur b = none ↔ order = []) := by
  refine ⟨?_, ?_, ?_, ?_, ?_⟩
  · intro i h
    have := step_fwd order hn i (by omega)
    rw [List.getElem?_eq_getElem (by omega), Nat.mod_eq_of_lt h, List.getElem?_eq_getElem h] at this
    exact this
  · intro h
    have hpos : 0 < order.length := List.length_pos_iff.2 h
    have := step_fwd order hn (order.length - 1) (by omega)
    rw [← List.getLast?_eq_getElem?, List.getLast?_eq_some_getLast h,
      show order.length - 1 + 1 = order.length by omega, Nat.mod_self, ← List.head?_eq_getElem?,
      List.head?_eq_some_head h] at this
    exact this
  · intro c hc b
    obtain ⟨i, hi, rfl⟩ := List.mem_iff_getElem.1 hc
    rw [← List.getElem?_eq_getElem hi]
    cases b with
    | false =>
      rw [step_fwd order hn i hi, Bool.not_false, step_back order hn _ (Nat.mod_lt _ (by omega))]
      congr 1
      by_cases hl : i + 1 < order.length
      · rw [Nat.mod_eq_of_lt hl, show i + 1 + order.length - 1 = i + order.length by omega, Nat.add_mod_right,
          Nat.mod_eq_of_lt hi]
      · rw [show i + 1 = order.length by omega, Nat.mod_self, Nat.zero_add, Nat.mod_eq_of_lt (by omega)]
        omega
    | true =>
      rw [step_back order hn i hi, Bool.not_true, step_fwd order hn _ (Nat.mod_lt _ (by omega)), Nat.mod_add_mod,
        show i + order.length - 1 + 1 = i + order.length by omega, Nat.add_mod_right, Nat.mod_eq_of_lt hi]
  · intro cur b c h
    unfold focusStep at h
    split at h
    · cases h
    · split at h <;> split at h
      · exact List.mem_of_getElem? h
      · exact List.mem_of_getElem? h
      · exact List.mem_of_getLast? h
      · exact List.mem_of_getElem? h
  · intro cur b
    constructor
    · intro h
      apply Classical.byContradiction
      intro hne
      have hpos : 0 < order.length := List.length_pos_iff.2 hne
      have he : order.isEmpty = false := by cases order <;> simp_all
      unfold focusStep at h
      rw [he] at h
      simp only [Bool.false_eq_true, if_false] at h
      split at h <;> split at h
      · rw [List.getElem?_eq_none_iff] at h
        have := Nat.mod_lt (‹Nat› + order.length - 1) hpos
        omega
      · rw [List.getElem?_eq_none_iff] at h
        have := Nat.mod_lt (‹Nat› + 1) hpos
        omega
      · exact hne (List.getLast?_eq_none_iff.1 h)
      · rw [List.getElem?_eq_none_iff] at h
        omega
    · intro h; subst h; rfl

example : [4, 7, 9].Nodup ∧ focusStep [4, 7, 9] (some 9) false = some 4 := by decide

/-- **C129** A click gives the focus to the nearest element at or above the node at the point that can
be focused; if there is none, or nothing at the point, the focus is taken away. -/
theorem C129_click (d : Doc) (hb : Bounded d) (n : Nat) :
    focusAt d none = none ∧
    ∃ l, Chain d n l ∧
      ((∃ k, FirstWith (CanFocus d) l k ∧ focusAt d (some n) = some k) ∨
       ((∀ k ∈ l, ¬ CanFocus d k) ∧ focusAt d (some n) = none)) := by
  refine ⟨rfl, up d n, up_chain d hb n, ?_⟩
  obtain ⟨h1, h2⟩ := find_first (isFocusable d) (CanFocus d) (focusable_iff d) (up d n)
  show (∃ k, _ ∧ (up d n).find? (isFocusable d) = some k) ∨ (_ ∧ (up d n).find? (isFocusable d) = none)
  cases hf : (up d n).find? (isFocusable d) with
  | none => right; exact ⟨h2 hf, rfl⟩
  | some k => left; exact ⟨k, h1 k hf, rfl⟩

example : focusAt page (some 2) = some 1 ∧ focusAt page (some 3) = none := by decide

/-- A root 0 with two buttons, 1 and 2, and a link 3. -/
def form (attrs : Nat → String → Option String) : Doc where
  root := 0
  children := fun n => if n = 0 then [1, 2, 3] else []
  parent := fun n => if n = 1 ∨ n = 2 ∨ n = 3 then some 0 else none
  isElement := fun _ => true
  isText := fun _ => false
  tag := fun n => if n = 0 then some "html" else if n = 3 then some "a" else some "button"
  attr := attrs
  index := fun s => if s = "1" then some 1 else if s = "2" then some 2 else if s = "-1" then some (-1) else none
  sensitive := fun _ => false
  height := 2

/-- **C129 does not go as far as HTML**: elements with a positive `tabindex` do not come first, nor in
the order of their numbers; an element with `tabindex="-1"` cannot be focused with a click, although
HTML only takes it out of the order of the Tab key; and a link with a `disabled` attribute, which means
nothing on links, or a `tabindex` that is not a number, cannot be focused at all. -/
theorem C129_html_violated :
    focusableElements (form fun n k => if k = "tabindex" ∧ n = 1 then some "2" else
      if k = "tabindex" ∧ n = 2 then some "1" else none) 4 = some [1, 2] ∧
    focusAt (form fun n k => if k = "tabindex" ∧ n = 1 then some "-1" else none) (some 1) = none ∧
    focusableElements (form fun n k => if n = 3 ∧ k = "href" then some "/" else
      if n = 3 ∧ k = "disabled" then some "" else none) 4 = some [1, 2] ∧
    focusableElements (form fun n k => if n = 3 ∧ k = "href" then some "/" else
      if n = 3 ∧ k = "tabindex" then some "x" else none) 4 = some [1, 2] := by
  refine ⟨by decide, by decide, by decide, by decide⟩

end Verif.Interact
