import Mathlib.Data.List.Perm.Basic
import Verif.Places.Lemmas
set_option linter.unusedVariables false

/-! Lemmas on searching, ranking and ordering. -/
namespace Verif.Places

/-! ## Searching -/

theorem contains_iff (s q : Str) : contains s q = true ↔ Occurs q s := by
  induction s with
  | nil =>
    simp only [contains, List.isEmpty_iff, Occurs]
    constructor
    · rintro rfl; exact ⟨[], [], rfl⟩
    · rintro ⟨a, b, h⟩
      have := congrArg List.length h
      simp only [List.length_nil, List.length_append] at this
      exact List.eq_nil_of_length_eq_zero (by omega)
  | cons c s ih =>
    simp only [contains, Bool.or_eq_true, List.isPrefixOf_iff_prefix, ih]
    constructor
    · rintro (⟨b, hb⟩ | ⟨a, b, rfl⟩)
      · exact ⟨[], b, by simp [hb]⟩
      · exact ⟨c :: a, b, by simp⟩
    · rintro ⟨a, b, h⟩
      cases a with
      | nil => exact Or.inl ⟨b, by simpa using h.symm⟩
      | cons x a =>
        simp only [List.cons_append, List.cons.injEq] at h
        exact Or.inr ⟨a, b, h.2⟩

theorem occurs_nil (s : Str) : Occurs [] s := ⟨[], s, by simp⟩

theorem memHit_iff (low : Str → Str) (q : Str) (v : VisitedPage) :
    memHit low q v = true ↔ Occurs (low q) (low v.url) ∨ Occurs (low q) (low v.title) := by
  simp only [memHit, Bool.or_eq_true, contains_iff, List.isEmpty_iff]
  constructor
  · rintro ((h | h) | h)
    · rw [h]; exact Or.inl (occurs_nil _)
    · exact Or.inl h
    · exact Or.inr h
  · rintro (h | h)
    · exact Or.inl (Or.inr h)
    · exact Or.inr h

theorem like_any (p s : Str) : likeMatch ('%' :: p) s = true ↔ ∃ a b, s = a ++ b ∧ likeMatch p b = true := by
  induction s with
  | nil =>
    rw [likeMatch]
    simp only [if_true, Bool.or_false]
    constructor
    · intro h; exact ⟨[], [], rfl, h⟩
    · rintro ⟨a, b, h, hb⟩
      have := List.append_eq_nil_iff.1 h.symm
      rw [this.2] at hb; exact hb
  | cons x s ih =>
    rw [likeMatch.eq_def]
    simp only [if_true, Bool.or_eq_true, ih]
    constructor
    · rintro (h | ⟨a, b, rfl, h⟩)
      · exact ⟨[], x :: s, rfl, h⟩
      · exact ⟨x :: a, b, rfl, h⟩
    · rintro ⟨a, b, h, hb⟩
      cases a with
      | nil => exact Or.inl (by simpa [h] using hb)
      | cons y a =>
        simp only [List.cons_append, List.cons.injEq] at h
        exact Or.inr ⟨a, b, h.2, hb⟩

theorem like_char (c : Char) (p s : Str) : likeMatch (escapeChar c ++ p) s = true ↔
    ∃ x s', s = x :: s' ∧ lowerChar x = lowerChar c ∧ likeMatch p s' = true := by
  unfold escapeChar
  split
  · rename_i h
    simp only [List.cons_append, List.nil_append]
    rw [likeMatch.eq_def]
    simp only
    rw [if_neg (by decide)]
    cases s with
    | nil => simp
    | cons x s' => simp
  · rename_i h
    simp only [not_or] at h
    simp only [List.cons_append, List.nil_append]
    rw [likeMatch.eq_def]
    simp only
    rw [if_neg h.2.1]
    cases s with
    | nil => simp
    | cons x s' => simp [h.1, h.2.2]

theorem like_literal (q p s : Str) : likeMatch (q.flatMap escapeChar ++ p) s = true ↔
    ∃ a b, s = a ++ b ∧ lower a = lower q ∧ likeMatch p b = true := by
  induction q generalizing s with
  | nil =>
    simp only [List.flatMap_nil, List.nil_append]
    constructor
    · intro h; exact ⟨[], s, rfl, rfl, h⟩
    · rintro ⟨a, b, rfl, ha, h⟩
      have : a = [] := by simpa [lower] using ha
      rw [this]; exact h
  | cons c q ih =>
    simp only [List.flatMap_cons, List.append_assoc, like_char, ih]
    constructor
    · rintro ⟨x, s', rfl, hx, a, b, rfl, ha, h⟩
      exact ⟨x :: a, b, rfl, by simp only [lower, List.map_cons, hx] at ha ⊢; rw [ha], h⟩
    · rintro ⟨a, b, rfl, ha, h⟩
      cases a with
      | nil => simp [lower] at ha
      | cons x a =>
        simp only [lower, List.map_cons, List.cons.injEq] at ha
        exact ⟨x, a ++ b, rfl, ha.1, a, b, rfl, ha.2, h⟩

theorem like_rest (s : Str) : likeMatch ['%'] s = true := by
  rw [like_any]
  exact ⟨s, [], by simp, by rw [likeMatch]; rfl⟩

theorem like_iff (q s : Str) : likeMatch (likePattern q) s = true ↔ Occurs (lower q) (lower s) := by
  unfold likePattern
  rw [like_any]
  simp only [like_literal, like_rest, and_true]
  constructor
  · rintro ⟨a, b, rfl, c, d, rfl, hc⟩
    exact ⟨lower a, lower d, by simp only [lower, List.map_append] at hc ⊢; rw [hc, List.append_assoc]⟩
  · rintro ⟨a, b, h⟩
    unfold lower at h
    rw [List.map_eq_append_iff] at h
    obtain ⟨s1, s2, rfl, h1, h2⟩ := h
    rw [List.map_eq_append_iff] at h1
    obtain ⟨s3, s4, rfl, h3, h4⟩ := h1
    exact ⟨s3, s4 ++ s2, by simp, s4, s2, rfl, h4⟩

theorem noNul_pattern {q : Str} (h : NoNul q) : NoNul (likePattern q) := by
  unfold NoNul likePattern
  simp only [List.mem_cons, List.mem_append, List.mem_flatMap, not_or, not_exists, not_and]
  refine ⟨by decide, fun c hc => ?_, by decide, by simp⟩
  have : '\x00' ≠ c := fun e => h (e ▸ hc)
  unfold escapeChar
  split
  · simp only [List.mem_cons, not_or, List.not_mem_nil, not_false_eq_true, and_true]
    exact ⟨by decide, this⟩
  · simpa using this

theorem pattern_empty {q : Str} (h : likePattern q = ['%', '%']) : q = [] := by
  cases q with
  | nil => rfl
  | cons c q =>
    have := congrArg List.length h
    simp only [likePattern, List.flatMap_cons, List.length_cons, List.length_append, List.length_nil] at this
    have : 0 < (escapeChar c).length := by unfold escapeChar; split <;> simp
    omega

theorem sqlHit_iff {q : Str} (hq : NoNul q) {v : VisitedPage} (hu : NoNul v.url) (ht : NoNul v.title) :
    sqlHit (likePattern q) v = true ↔ Occurs (lower q) (lower v.url) ∨ Occurs (lower q) (lower v.title) := by
  simp only [sqlHit, Bool.or_eq_true, decide_eq_true_eq, cstr_of (noNul_pattern hq), cstr_of hu, cstr_of ht, like_iff]
  constructor
  · rintro ((h | h) | h)
    · rw [pattern_empty h]; exact Or.inl (occurs_nil _)
    · exact Or.inl h
    · exact Or.inr h
  · rintro (h | h)
    · exact Or.inl (Or.inr h)
    · exact Or.inr h

/-! ## Ranking -/

theorem rankLe_iff (a b : VisitedPage) : rankLe a b = true ↔ ¬ Better b a := by
  simp only [rankLe, Bool.or_eq_true, Bool.and_eq_true, decide_eq_true_eq, Better, not_or, not_and]
  omega

theorem rank_order : ValidOrder (isort rankLe) := by
  refine ⟨isort_perm _, fun l => ?_⟩
  have := isort_sorted rankLe ?_ ?_ l
  · exact this.imp fun {a b} h => (rankLe_iff a b).1 h
  · intro a b c; simp only [rankLe_iff, Better]; omega
  · intro a b; simp only [rankLe_iff, Better]; omega

theorem isTop_of {h : List Call} {vs : List VisitedPage} (T : Table VisitedPage.url vs (visited h))
    {order : List VisitedPage → List VisitedPage} (ho : ValidOrder order) {p : VisitedPage → Bool}
    {hit : VisitedPage → Prop} (hp : ∀ v ∈ vs, p v = true ↔ hit v) (limit : Nat) :
    IsTop h hit limit ((order (vs.filter p)).take limit) := by
  have hm : ∀ v, v ∈ order (vs.filter p) ↔ v ∈ vs ∧ hit v := fun v => by
    rw [(ho.perm _).mem_iff, List.mem_filter]
    constructor
    · rintro ⟨h1, h2⟩; exact ⟨h1, (hp v h1).1 h2⟩
    · rintro ⟨h1, h2⟩; exact ⟨h1, (hp v h1).2 h2⟩
  have hs := ho.sorted (vs.filter p)
  have hnd : ((order (vs.filter p)).map VisitedPage.url).Nodup :=
    ((ho.perm _).map _).nodup_iff.2 ((List.filter_sublist.map _).nodup T.nodup)
  generalize order (vs.filter p) = l at hm hs hnd
  refine ⟨?_, ((List.take_sublist _ _).map _).nodup hnd, hs.sublist (List.take_sublist _ _),
    List.length_take_le _ _, ?_⟩
  · intro v hv
    obtain ⟨h1, h2⟩ := (hm v).1 (List.mem_of_mem_take hv)
    exact ⟨(T.mem v).1 h1, h2⟩
  · intro u v hv hh
    have hk := T.keyed u v hv
    have hmv : v ∈ l := (hm v).2 ⟨(T.mem v).2 (by rw [hk]; exact hv), hh⟩
    rw [← List.take_append_drop limit l, List.mem_append] at hmv
    rcases hmv with h1 | h1
    · exact Or.inl h1
    · right
      have hlen := List.length_pos_of_mem h1
      rw [List.length_drop] at hlen
      refine ⟨by rw [List.length_take]; omega, fun w hw => ?_⟩
      rw [← List.take_append_drop limit l, List.pairwise_append] at hs
      exact hs.2.2 w hw v h1

theorem mem_texts {P : Str → Prop} (h0 : P []) {h : List Call} (hn : VisitTexts P h) {u : Str} {v : VisitedPage}
    (hv : visited h u = some v) : P v.url ∧ P v.title := by
  induction h using List.reverseRecOn generalizing u v with
  | nil => cases hv
  | append_singleton h c ih =>
    have ih : ∀ {u : Str} {v : VisitedPage}, visited h u = some v → P v.url ∧ P v.title :=
      fun {u v} hv => ih (fun u t n hm => hn u t n (by simp [hm])) hv
    cases c with
    | recordVisit u' t n =>
      rw [visited_visit] at hv
      have hc := hn u' t n (by simp)
      split at hv
      · simp only [Option.some.injEq] at hv
        cases hw : visited h u with
        | none => rw [hw] at hv; subst hv; exact hc
        | some w =>
          rw [hw] at hv
          subst hv
          refine ⟨(ih hw).1, ?_⟩
          simp only [Option.elim_some, VisitedPage.again]
          split
          · exact (ih hw).2
          · exact hc.2
      · exact ih hv
    | clearHistory => rw [visited_clear] at hv; cases hv
    | addBookmark u t n => rw [visited_other h _ (by simp) (by simp)] at hv; exact ih hv
    | removeBookmark u => rw [visited_other h _ (by simp) (by simp)] at hv; exact ih hv

theorem upsert_length {α : Type} (key : α → Str) (row : α) (f : α → α) (l : List α) :
    (upsert key row f l).length ≤ l.length + 1 := by
  unfold upsert; split <;> simp

theorem mem_length (h : List Call) : (mem h).visits.length ≤ h.length := by
  induction h using List.reverseRecOn with
  | nil => simp [mem, MemoryInner.new]
  | append_singleton h c ih =>
    rw [mem_snoc, List.length_append, List.length_singleton]
    cases c with
    | addBookmark u t n =>
      have e : ((mem h).call (.addBookmark u t n)).visits = (mem h).visits := by
        simp only [MemoryInner.call, MemoryInner.addBookmark]; split <;> rfl
      rw [e]; omega
    | removeBookmark u =>
      have e : ((mem h).call (.removeBookmark u)).visits = (mem h).visits := rfl
      rw [e]; omega
    | recordVisit u t n =>
      simp only [MemoryInner.call]
      rw [mem_visit _ (mem_visits h).nodup]
      exact (upsert_length _ _ _ _).trans (by omega)
    | clearHistory => simp [MemoryInner.call, MemoryInner.clearHistory]

theorem ranks_eq {l l' : List VisitedPage} (hp : l.Perm l') (h : l.Pairwise fun a b => ¬ Better b a)
    (h' : l'.Pairwise fun a b => ¬ Better b a) : l.map rank = l'.map rank := by
  refine (hp.map rank).eq_of_pairwise (le := fun a b => ¬ (a.1 < b.1 ∨ (a.1 = b.1 ∧ a.2 < b.2))) ?_ ?_ ?_
  · intro a b _ _ h1 h2
    ext <;> omega
  · rw [List.pairwise_map]; exact h
  · rw [List.pairwise_map]; exact h'

theorem lists_eq {l l' : List VisitedPage} (hp : l.Perm l') (h : l.Pairwise fun a b => ¬ Better b a)
    (h' : l'.Pairwise fun a b => ¬ Better b a) (hd : ∀ a ∈ l, ∀ b ∈ l, rank a = rank b → a = b) : l = l' := by
  refine hp.eq_of_pairwise (le := fun a b => ¬ Better b a) ?_ h h'
  intro a b ha hb h1 h2
  apply hd a ha b (hp.mem_iff.2 hb)
  unfold rank
  simp only [Better] at h1 h2
  ext <;> simp <;> omega

/-! ## Bookmarks -/

theorem strLe_total : ∀ s t : Str, strLe s t = true ∨ strLe t s = true
  | [], _ => by simp [strLe]
  | _ :: _, [] => by simp [strLe]
  | a :: s, b :: t => by
    simp only [strLe, Bool.or_eq_true, Bool.and_eq_true, decide_eq_true_eq]
    have := strLe_total s t
    rcases Nat.lt_trichotomy a.toNat b.toNat with h | h | h
    · exact Or.inl (Or.inl h)
    · rcases this with h2 | h2
      · exact Or.inl (Or.inr ⟨h, h2⟩)
      · exact Or.inr (Or.inr ⟨h.symm, h2⟩)
    · exact Or.inr (Or.inl h)

theorem strLe_trans : ∀ s t r : Str, strLe s t = true → strLe t r = true → strLe s r = true
  | [], _, _, _, _ => by simp [strLe]
  | _ :: _, [], _, h, _ => by simp [strLe] at h
  | _ :: _, _ :: _, [], _, h => by simp [strLe] at h
  | a :: s, b :: t, c :: r, h1, h2 => by
    simp only [strLe, Bool.or_eq_true, Bool.and_eq_true, decide_eq_true_eq] at h1 h2 ⊢
    rcases h1 with h1 | ⟨h1, h3⟩
    · rcases h2 with h2 | ⟨h2, h4⟩ <;> exact Or.inl (by omega)
    · rcases h2 with h2 | ⟨h2, h4⟩
      · exact Or.inl (by omega)
      · exact Or.inr ⟨by omega, strLe_trans s t r h3 h4⟩

theorem bookmarks_sorted (l : List Bookmark) :
    (isort bookmarkLe l).Pairwise fun a b => a.createdAt ≤ b.createdAt := by
  have := isort_sorted bookmarkLe ?_ ?_ l
  · refine this.imp fun {a b} h => ?_
    simp only [bookmarkLe, Bool.or_eq_true, Bool.and_eq_true, decide_eq_true_eq] at h
    omega
  · intro a b c h1 h2
    simp only [bookmarkLe, Bool.or_eq_true, Bool.and_eq_true, decide_eq_true_eq] at h1 h2 ⊢
    rcases h1 with h1 | ⟨h1, h3⟩
    · exact Or.inl (by omega)
    · rcases h2 with h2 | ⟨h2, h4⟩
      · exact Or.inl (by omega)
      · exact Or.inr ⟨by omega, strLe_trans _ _ _ h3 h4⟩
  · intro a b
    simp only [bookmarkLe, Bool.or_eq_true, Bool.and_eq_true, decide_eq_true_eq]
    rcases Nat.lt_trichotomy a.createdAt b.createdAt with h | h | h
    · exact Or.inl (Or.inl h)
    · exact (strLe_total a.url b.url).imp (fun h2 => Or.inr ⟨h, h2⟩) (fun h2 => Or.inr ⟨h.symm, h2⟩)
    · exact Or.inr (Or.inl h)

/-- the times bookmarks are added at -/
def addTimes (h : List Call) : List Nat :=
  h.filterMap fun c => match c with
    | .addBookmark _ _ n => some n
    | _ => none

theorem mem_created (h : List Call) : ∀ b ∈ (mem h).bookmarks, b.createdAt ∈ addTimes h := by
  induction h using List.reverseRecOn with
  | nil => simp [mem, MemoryInner.new]
  | append_singleton h c ih =>
    have hsub : ∀ n ∈ addTimes h, n ∈ addTimes (h ++ [c]) := fun n hn => by
      unfold addTimes at *; rw [List.filterMap_append]; exact List.mem_append_left _ hn
    intro b hb
    rw [mem_snoc] at hb
    cases c with
    | addBookmark u t n =>
      simp only [MemoryInner.call] at hb
      rw [mem_add _ (mem_bookmarks h).nodup] at hb
      have hb := (mem_upsert Bookmark.url (f := fun b : Bookmark => { b with title := t }) (fun _ => rfl)
        ⟨u, t, n⟩ _ b).1 hb
      rcases hb with ⟨_, hb⟩ | ⟨r, hr, _, rfl⟩ | ⟨_, rfl⟩
      · exact hsub _ (ih b hb)
      · exact hsub _ (ih r hr)
      · unfold addTimes; simp
    | removeBookmark u =>
      simp only [MemoryInner.call, MemoryInner.removeBookmark, List.mem_filter] at hb
      exact hsub _ (ih b hb.1)
    | recordVisit u t n =>
      have e : ((mem h).call (.recordVisit u t n)).bookmarks = (mem h).bookmarks := by
        simp only [MemoryInner.call, MemoryInner.recordVisit]; split <;> rfl
      rw [e] at hb
      exact hsub _ (ih b hb)
    | clearHistory => exact hsub _ (ih b hb)

theorem mem_oldest_first (h : List Call) (hc : ClockForward h) :
    (mem h).bookmarks.Pairwise fun a b => a.createdAt ≤ b.createdAt := by
  induction h using List.reverseRecOn with
  | nil => simp [mem, MemoryInner.new]
  | append_singleton h c ih =>
    have hc' := hc
    unfold ClockForward at hc'
    rw [List.filterMap_append, List.pairwise_append] at hc'
    have ih := ih hc'.1
    rw [mem_snoc]
    cases c with
    | addBookmark u t n =>
      simp only [MemoryInner.call]
      rw [mem_add _ (mem_bookmarks h).nodup]
      simp only [upsert]
      split
      · rw [List.pairwise_map]
        refine ih.imp fun {a b} hab => ?_
        have e : ∀ r : Bookmark, (if r.url = u then { r with title := t } else r).createdAt = r.createdAt :=
          fun r => by split <;> rfl
        rw [e, e]; exact hab
      · rw [List.pairwise_append]
        refine ⟨ih, by simp, fun a ha b hb => ?_⟩
        simp only [List.mem_singleton] at hb
        subst hb
        exact hc'.2.2 _ (mem_created h a ha) n (by simp)
    | removeBookmark u => exact ih.filter _
    | recordVisit u t n =>
      have e : ((mem h).call (.recordVisit u t n)).bookmarks = (mem h).bookmarks := by
        simp only [MemoryInner.call, MemoryInner.recordVisit]; split <;> rfl
      rw [e]; exact ih
    | clearHistory => exact ih

theorem ascii_noNul {s : Str} (h : Ascii s) : NoNul s := fun hm => by
  have := (h _ hm).1
  simp at this

end Verif.Places
