import Mathlib.Tactic.Common
import Mathlib.Data.List.Induction
import Mathlib.Data.List.TakeWhile
import Verif.Places.Spec
set_option linter.unusedVariables false

/-! Lemmas on the two stores and the calls made to them. -/
namespace Verif.Places

/-! ## Tables with a key -/

section Keyed
variable {α : Type} (key : α → Str)

theorem updFirst_none {f : α → α} {u : Str} {l : List α} :
    updFirst (fun b => decide (key b = u)) f l = none ↔ ∀ r ∈ l, key r ≠ u := by
  induction l with
  | nil => simp [updFirst]
  | cons a l ih =>
    simp only [updFirst]
    by_cases h : key a = u
    · simp [h]
    · simp [h, ih]

theorem updFirst_some {f : α → α} {u : Str} {l l' : List α} (hn : (l.map key).Nodup)
    (h : updFirst (fun b => decide (key b = u)) f l = some l') :
    (∃ r ∈ l, key r = u) ∧ l' = l.map fun r => if key r = u then f r else r := by
  induction l generalizing l' with
  | nil => simp [updFirst] at h
  | cons a l ih =>
    simp only [List.map_cons, List.nodup_cons] at hn
    simp only [updFirst] at h
    by_cases ha : key a = u
    · simp only [ha, decide_true, if_true, Option.some.injEq] at h
      subst h
      refine ⟨⟨a, by simp, ha⟩, ?_⟩
      simp only [List.map_cons, ha, if_true, List.cons.injEq, true_and]
      symm
      conv_rhs => rw [← List.map_id l]
      apply List.map_congr_left
      intro r hr
      rw [if_neg]; rfl
      intro e
      exact hn.1 (by rw [ha, ← e]; exact List.mem_map_of_mem hr)
    · simp only [ha, decide_false, Bool.false_eq_true, if_false, Option.map_eq_some_iff] at h
      obtain ⟨l2, h2, rfl⟩ := h
      obtain ⟨⟨r, hr, hk⟩, rfl⟩ := ih hn.2 h2
      exact ⟨⟨r, by simp [hr], hk⟩, by simp [ha]⟩

theorem updFirst_eq_upsert (row : α) (f : α → α) (l : List α) (hn : (l.map key).Nodup) :
    (updFirst (fun b => decide (key b = key row)) f l).getD (l ++ [row]) = upsert key row f l := by
  unfold upsert
  cases h : updFirst (fun b => decide (key b = key row)) f l with
  | none =>
    rw [updFirst_none] at h
    rw [if_neg]; rfl
    simpa using h
  | some l' =>
    obtain ⟨⟨r, hr, hk⟩, rfl⟩ := updFirst_some key hn h
    rw [if_pos (by simpa using ⟨r, hr, hk⟩)]; rfl

theorem map_key_upd {f : α → α} (hf : ∀ r, key (f r) = key r) (u : Str) (l : List α) :
    (l.map fun r => if key r = u then f r else r).map key = l.map key := by
  rw [List.map_map]
  apply List.map_congr_left
  intro r _
  simp only [Function.comp_apply]
  split
  · exact hf r
  · rfl

theorem nodup_upsert {f : α → α} (hf : ∀ r, key (f r) = key r) (row : α) (l : List α) (hn : (l.map key).Nodup) :
    ((upsert key row f l).map key).Nodup := by
  unfold upsert
  split
  · rwa [map_key_upd key hf]
  · rename_i h
    simp only [List.any_eq_true, decide_eq_true_eq, not_exists, not_and] at h
    rw [List.map_append, List.nodup_append]
    refine ⟨hn, by simp, ?_⟩
    intro a ha b hb e
    simp only [List.map_cons, List.map_nil, List.mem_singleton] at hb
    simp only [List.mem_map] at ha
    obtain ⟨r, hr, rfl⟩ := ha
    exact h r hr (e.trans hb)

theorem mem_upsert {f : α → α} (hf : ∀ r, key (f r) = key r) (row : α) (l : List α) (v : α) :
    v ∈ upsert key row f l ↔ (key v ≠ key row ∧ v ∈ l) ∨
      (∃ r ∈ l, key r = key row ∧ v = f r) ∨ ((∀ r ∈ l, key r ≠ key row) ∧ v = row) := by
  unfold upsert
  split
  · rename_i h
    simp only [List.any_eq_true, decide_eq_true_eq] at h
    obtain ⟨r0, hr0, hk0⟩ := h
    simp only [List.mem_map]
    constructor
    · rintro ⟨r, hr, rfl⟩
      split
      · exact Or.inr (Or.inl ⟨r, hr, ‹_›, rfl⟩)
      · exact Or.inl ⟨‹_›, hr⟩
    · rintro (⟨hk, hv⟩ | ⟨r, hr, hk, rfl⟩ | ⟨h, _⟩)
      · exact ⟨v, hv, by rw [if_neg hk]⟩
      · exact ⟨r, hr, by rw [if_pos hk]⟩
      · exact absurd hk0 (h r0 hr0)
  · rename_i h
    simp only [List.any_eq_true, decide_eq_true_eq, not_exists, not_and] at h
    simp only [List.mem_append, List.mem_singleton]
    constructor
    · rintro (hv | rfl)
      · exact Or.inl ⟨h v hv, hv⟩
      · exact Or.inr (Or.inr ⟨h, rfl⟩)
    · rintro (⟨_, hv⟩ | ⟨r, hr, hk, rfl⟩ | ⟨_, rfl⟩)
      · exact Or.inl hv
      · exact absurd hk (h r hr)
      · exact Or.inr rfl

/-- The rows are those a function of the key gives, each key once. -/
structure Table (l : List α) (g : Str → Option α) : Prop where
  nodup : (l.map key).Nodup
  mem : ∀ v, v ∈ l ↔ g (key v) = some v
  keyed : ∀ u v, g u = some v → key v = u

theorem Table.none {l : List α} {g : Str → Option α} (T : Table key l g) (u : Str) :
    g u = none ↔ ∀ r ∈ l, key r ≠ u := by
  constructor
  · intro h r hr e
    rw [T.mem, e, h] at hr
    cases hr
  · intro h
    cases hg : g u with
    | none => rfl
    | some v =>
      have hk := T.keyed u v hg
      exact absurd hk (h v ((T.mem v).2 (by rw [hk]; exact hg)))

theorem Table.upsert {l : List α} {g g' : Str → Option α} (T : Table key l g) {f : α → α}
    (hf : ∀ r, key (f r) = key r) (row : α)
    (hg : ∀ u, g' u = if u = key row then some ((g u).elim row f) else g u) :
    Table key (upsert key row f l) g' := by
  refine ⟨nodup_upsert key hf row l T.nodup, ?_, ?_⟩
  · intro v
    rw [mem_upsert key hf, hg]
    by_cases hk : key v = key row
    · rw [if_pos hk]
      cases hv : g (key v) with
      | none =>
        have hn := (T.none key (key v)).1 hv
        rw [hk] at hn
        simp only [Option.some.injEq, Option.elim_some, Option.elim_none]
        constructor
        · rintro (⟨h, _⟩ | ⟨r, hr, h, _⟩ | ⟨_, h⟩)
          · exact absurd hk h
          · exact absurd h (hn r hr)
          · exact h.symm
        · intro h
          exact Or.inr (Or.inr ⟨hn, h.symm⟩)
      | some r0 =>
        have hk0 := T.keyed _ _ hv
        have hm0 : r0 ∈ l := (T.mem r0).2 (by rw [hk0]; exact hv)
        simp only [Option.some.injEq, Option.elim_some, Option.elim_none]
        constructor
        · rintro (⟨h, _⟩ | ⟨r, hr, h, e⟩ | ⟨h, _⟩)
          · exact absurd hk h
          · have hr' := (T.mem r).1 hr
            rw [h, ← hk, hv] at hr'
            cases hr'
            exact e.symm
          · exact absurd (hk0.trans hk) (h r0 hm0)
        · intro h
          exact Or.inr (Or.inl ⟨r0, hm0, hk0.trans hk, h.symm⟩)
    · rw [if_neg hk, ← T.mem]
      constructor
      · rintro (⟨_, h⟩ | ⟨r, hr, h, e⟩ | ⟨_, h⟩)
        · exact h
        · exact absurd (by rw [e, hf, h]) hk
        · exact absurd (by rw [h]) hk
      · intro h
        exact Or.inl ⟨hk, h⟩
  · intro u v h
    rw [hg] at h
    split at h
    · rename_i hu
      simp only [Option.some.injEq] at h
      cases hv : g u with
      | none => rw [hv] at h; simp only [Option.elim_none] at h; rw [← h, hu]
      | some r => rw [hv] at h; simp only [Option.elim_some] at h; rw [← h, hf, T.keyed u r hv]
    · exact T.keyed u v h

theorem Table.remove {l : List α} {g g' : Str → Option α} (T : Table key l g) (u0 : Str)
    (hg : ∀ u, g' u = if u = u0 then .none else g u) :
    Table key (l.filter fun b => decide (key b ≠ u0)) g' := by
  refine ⟨(List.filter_sublist.map key).nodup T.nodup, ?_, ?_⟩
  · intro v
    rw [List.mem_filter, hg, T.mem]
    by_cases h : key v = u0
    · simp [h]
    · simp [h]
  · intro u v h
    rw [hg] at h
    split at h
    · cases h
    · exact T.keyed u v h

theorem Table.congr {l : List α} {g g' : Str → Option α} (T : Table key l g) (hg : ∀ u, g' u = g u) : Table key l g' :=
  ⟨T.nodup, fun v => by rw [hg]; exact T.mem v, fun u v h => T.keyed u v (by rw [← hg]; exact h)⟩

theorem Table.empty {g : Str → Option α} (hg : ∀ u, g u = .none) : Table key [] g :=
  ⟨by simp, fun v => by simp [hg], fun u v h => by simp [hg] at h⟩

end Keyed

/-! ## The calls -/

theorem sinceClear_snoc (h : List Call) (c : Call) :
    sinceClear (h ++ [c]) = if c = .clearHistory then [] else sinceClear h ++ [c] := by
  induction h with
  | nil =>
    by_cases hc : c = .clearHistory <;> simp [sinceClear, hc]
  | cons d h ih =>
    simp only [List.cons_append, sinceClear]
    by_cases hc : c = .clearHistory
    · subst hc; simp [ih]
    · have hm : (Call.clearHistory ∈ h ++ [c]) ↔ Call.clearHistory ∈ h := by
        simp [Ne.symm hc]
      simp only [hm, ih, hc, if_false]
      split
      · rfl
      · split <;> rfl

theorem sinceRemoved_snoc (u : Str) (h : List Call) (c : Call) :
    sinceRemoved u (h ++ [c]) = if c = .removeBookmark u then [] else sinceRemoved u h ++ [c] := by
  induction h with
  | nil =>
    by_cases hc : c = .removeBookmark u <;> simp [sinceRemoved, hc]
  | cons d h ih =>
    simp only [List.cons_append, sinceRemoved]
    by_cases hc : c = .removeBookmark u
    · subst hc; simp [ih]
    · have hm : (Call.removeBookmark u ∈ h ++ [c]) ↔ Call.removeBookmark u ∈ h := by
        simp [Ne.symm hc]
      simp only [hm, ih, hc, if_false]
      split
      · rfl
      · split <;> rfl

theorem lastTitle_snoc (l : List (Str × Nat)) (t : Str) (n : Nat) :
    lastTitle (l ++ [(t, n)]) = if t = [] then lastTitle l else t := by
  unfold lastTitle
  rw [List.map_append, List.filter_append]
  by_cases h : t = []
  · subst h; simp
  · simp [h]

theorem visited_visit (h : List Call) (u t : Str) (n : Nat) (u' : Str) :
    visited (h ++ [.recordVisit u t n]) u' =
      if u' = u then some ((visited h u').elim ⟨u, t, 1, n⟩ (VisitedPage.again t n))
      else visited h u' := by
  unfold visited
  rw [sinceClear_snoc, if_neg (by simp)]
  have hv : visitsTo u' (sinceClear h ++ [.recordVisit u t n]) =
      visitsTo u' (sinceClear h) ++ if u = u' then [(t, n)] else [] := by
    unfold visitsTo
    rw [List.filterMap_append]
    congr 1
    by_cases e : u = u' <;> simp [e]
  rw [hv]
  generalize visitsTo u' (sinceClear h) = l
  by_cases e : u = u'
  · subst e
    simp only [if_true, List.getLast?_append, List.getLast?_singleton, Option.some_or, lastTitle_snoc,
      List.length_append, List.length_singleton]
    rcases List.eq_nil_or_concat l with rfl | ⟨l', x, hl⟩
    · have e : (if t = [] then ([] : Str) else t) = t := by split <;> simp_all
      simp [lastTitle, e]
    · rw [List.concat_eq_append] at hl
      subst hl
      simp only [List.getLast?_append, List.getLast?_singleton, Option.some_or, VisitedPage.again, Option.elim_some]
  · have e2 : ¬ u' = u := fun e' => e e'.symm
    simp [e, e2]

theorem visited_clear (h : List Call) (u : Str) : visited (h ++ [.clearHistory]) u = none := by
  unfold visited
  rw [sinceClear_snoc, if_pos rfl]
  rfl

theorem visited_other (h : List Call) (c : Call) (hc : c ≠ .clearHistory) (hv : ∀ u t n, c ≠ .recordVisit u t n)
    (u : Str) : visited (h ++ [c]) u = visited h u := by
  unfold visited
  rw [sinceClear_snoc, if_neg hc]
  have : visitsTo u (sinceClear h ++ [c]) = visitsTo u (sinceClear h) := by
    unfold visitsTo
    rw [List.filterMap_append]
    cases c <;> simp_all
  rw [this]

theorem visited_nil (u : Str) : visited [] u = none := rfl

theorem bookmarked_nil (u : Str) : bookmarked [] u = none := rfl

theorem bookmarked_add (h : List Call) (u t : Str) (n : Nat) (u' : Str) :
    bookmarked (h ++ [.addBookmark u t n]) u' =
      if u' = u then some ((bookmarked h u').elim ⟨u, t, n⟩ fun b => { b with title := t })
      else bookmarked h u' := by
  unfold bookmarked
  rw [sinceRemoved_snoc, if_neg (by simp)]
  have hv : additions u' (sinceRemoved u' h ++ [.addBookmark u t n]) =
      additions u' (sinceRemoved u' h) ++ if u = u' then [(t, n)] else [] := by
    unfold additions
    rw [List.filterMap_append]
    congr 1
    by_cases e : u = u' <;> simp [e]
  rw [hv]
  generalize additions u' (sinceRemoved u' h) = l
  by_cases e : u = u'
  · subst e
    simp only [if_true, List.getLast?_append, List.getLast?_singleton, Option.some_or]
    cases l with
    | nil => simp
    | cons x l =>
      rcases List.eq_nil_or_concat (x :: l) with hh | ⟨l', y, hh⟩
      · cases hh
      · rw [List.concat_eq_append] at hh
        rw [hh]
        simp only [List.head?_append, List.getLast?_append, List.getLast?_singleton, Option.some_or]
        cases l' with
        | nil => simp
        | cons z l' => simp
  · have e2 : ¬ u' = u := fun e' => e e'.symm
    simp [e, e2]

theorem bookmarked_remove (h : List Call) (u u' : Str) :
    bookmarked (h ++ [.removeBookmark u]) u' = if u' = u then none else bookmarked h u' := by
  unfold bookmarked
  rw [sinceRemoved_snoc]
  by_cases e : u' = u
  · subst e; simp [additions]
  · have e2 : ¬ u = u' := fun e' => e e'.symm
    rw [if_neg (by simp [e2]), if_neg e]
    have : additions u' (sinceRemoved u' h ++ [.removeBookmark u]) = additions u' (sinceRemoved u' h) := by
      unfold additions; simp
    rw [this]

theorem bookmarked_other (h : List Call) (c : Call) (hc : ∀ u, c ≠ .removeBookmark u)
    (hv : ∀ u t n, c ≠ .addBookmark u t n) (u : Str) : bookmarked (h ++ [c]) u = bookmarked h u := by
  unfold bookmarked
  rw [sinceRemoved_snoc, if_neg (hc u)]
  have : additions u (sinceRemoved u h ++ [c]) = additions u (sinceRemoved u h) := by
    unfold additions
    rw [List.filterMap_append]
    cases c <;> simp_all
  rw [this]

theorem mem_snoc (h : List Call) (c : Call) : mem (h ++ [c]) = (mem h).call c := by simp [mem]
theorem sql_snoc (h : List Call) (c : Call) : sql (h ++ [c]) = (sql h).call c := by simp [sql]

theorem mem_add (m : MemoryInner) (hn : (m.bookmarks.map Bookmark.url).Nodup) (u t : Str) (n : Nat) :
    m.addBookmark u t n =
      { m with bookmarks := upsert Bookmark.url ⟨u, t, n⟩ (fun b => { b with title := t }) m.bookmarks } := by
  have e := updFirst_eq_upsert Bookmark.url ⟨u, t, n⟩ (fun b => { b with title := t }) m.bookmarks hn
  rw [← e]
  unfold MemoryInner.addBookmark
  simp only
  split <;> rename_i hh <;> simp [hh]

theorem mem_visit (m : MemoryInner) (hn : (m.visits.map VisitedPage.url).Nodup) (u t : Str) (n : Nat) :
    m.recordVisit u t n =
      { m with visits := upsert VisitedPage.url ⟨u, t, 1, n⟩ (VisitedPage.again t n) m.visits } := by
  have e := updFirst_eq_upsert VisitedPage.url ⟨u, t, 1, n⟩ (VisitedPage.again t n) m.visits hn
  rw [← e]
  unfold MemoryInner.recordVisit
  simp only
  split <;> rename_i hh <;> simp [hh]

theorem mem_visits (h : List Call) : Table VisitedPage.url (mem h).visits (visited h) := by
  induction h using List.reverseRecOn with
  | nil => exact Table.empty _ visited_nil
  | append_singleton h c ih =>
    rw [mem_snoc]
    cases c with
    | addBookmark u t n =>
      have e : ((mem h).call (.addBookmark u t n)).visits = (mem h).visits := by
        simp only [MemoryInner.call, MemoryInner.addBookmark]; split <;> rfl
      rw [e]
      exact ih.congr _ (visited_other h _ (by simp) (by simp))
    | removeBookmark u => exact ih.congr _ (visited_other h _ (by simp) (by simp))
    | recordVisit u t n =>
      simp only [MemoryInner.call]
      rw [mem_visit _ ih.nodup]
      exact ih.upsert _ (f := VisitedPage.again t n) (fun r => rfl) ⟨u, t, 1, n⟩ (visited_visit h u t n)
    | clearHistory => exact Table.empty _ (visited_clear h)

theorem mem_bookmarks (h : List Call) : Table Bookmark.url (mem h).bookmarks (bookmarked h) := by
  induction h using List.reverseRecOn with
  | nil => exact Table.empty _ bookmarked_nil
  | append_singleton h c ih =>
    rw [mem_snoc]
    cases c with
    | addBookmark u t n =>
      simp only [MemoryInner.call]
      rw [mem_add _ ih.nodup]
      exact ih.upsert _ (f := fun b => { b with title := t }) (fun r => rfl) ⟨u, t, n⟩ (bookmarked_add h u t n)
    | removeBookmark u => exact ih.remove _ u (bookmarked_remove h u)
    | recordVisit u t n =>
      have e : ((mem h).call (.recordVisit u t n)).bookmarks = (mem h).bookmarks := by
        simp only [MemoryInner.call, MemoryInner.recordVisit]; split <;> rfl
      rw [e]
      exact ih.congr _ (bookmarked_other h _ (by simp) (by simp))
    | clearHistory => exact ih.congr _ (bookmarked_other h _ (by simp) (by simp))

theorem sql_bookmarks_eq (h : List Call) : (sql h).bookmarks = (mem h).bookmarks := by
  induction h using List.reverseRecOn with
  | nil => rfl
  | append_singleton h c ih =>
    rw [mem_snoc, sql_snoc]
    cases c with
    | addBookmark u t n =>
      simp only [MemoryInner.call, Db.call]
      rw [mem_add _ (mem_bookmarks h).nodup]
      simp only [Db.addBookmark, ih]
    | removeBookmark u => simp only [MemoryInner.call, Db.call, Db.removeBookmark, MemoryInner.removeBookmark, ih]
    | recordVisit u t n =>
      simp only [MemoryInner.call, Db.call, MemoryInner.recordVisit, Db.recordVisit, ih]; split <;> rfl
    | clearHistory => exact ih

theorem cstr_of {s : Str} (h : NoNul s) : cstr s = s := by
  unfold cstr
  rw [List.takeWhile_eq_self_iff]
  intro x hx
  simp only [ne_eq, decide_eq_true_eq]
  rintro rfl
  exact h hx

theorem sql_visits_eq (h : List Call) (hn : VisitTexts NoNul h) : (sql h).visits = (mem h).visits := by
  induction h using List.reverseRecOn with
  | nil => rfl
  | append_singleton h c ih =>
    have ih := ih fun u t n hm => hn u t n (by simp [hm])
    rw [mem_snoc, sql_snoc]
    cases c with
    | addBookmark u t n =>
      simp only [MemoryInner.call, Db.call, MemoryInner.addBookmark, Db.addBookmark, ih]; split <;> rfl
    | removeBookmark u => exact ih
    | recordVisit u t n =>
      simp only [MemoryInner.call, Db.call]
      rw [mem_visit _ (mem_visits h).nodup]
      have ht := cstr_of (hn u t n (by simp)).2
      simp only [Db.recordVisit, ih, ht]
      congr 1
      funext v
      simp only [VisitedPage.again]
      cases t <;> simp
    | clearHistory => rfl

end Verif.Places
