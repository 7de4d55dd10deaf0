import Verif.Places.Lemmas2
set_option linter.unusedVariables false

/-!
# C58, C76 and C77

Bookmarks and visited pages: for every list of calls `h`, at whatever times they are made.
-/
namespace Verif.Places

/-! ## C58: visited pages -/

/-- C58, in memory: the query gives the best-ranked pages visited since the last clearing whose URL or title contains
the query, compared in lower case (`low`: Unicode lower-casing). -/
theorem C58_memory (low : Str → Str) (h : List Call) (q : Str) (limit : Nat) :
    IsTop h (fun v => Occurs (low q) (low v.url) ∨ Occurs (low q) (low v.title)) limit
      ((mem h).queryVisited low q limit) :=
  isTop_of (mem_visits h) rank_order (fun v _ => memHit_iff low q v) limit

/-- C58, SQLite: the same with ASCII lower-casing, for every order SQLite may give pages of the same rank.
Missing for the full claim: a query whose pattern is over 50000 bytes (`C58_sqlite_long_violated`), letters outside ASCII
(`C58_sqlite_case_violated`), and texts with a NUL character. -/
theorem C58_sqlite_partial (order : List VisitedPage → List VisitedPage) (ho : ValidOrder order) (h : List Call)
    (hn : VisitTexts NoNul h) (hl : h.length < 2 ^ 63) (q : Str) (hq : NoNul q)
    (hlen : utf8Len (likePattern q) ≤ 50000) (limit : Nat) :
    IsTop h (fun v => Occurs (lower q) (lower v.url) ∨ Occurs (lower q) (lower v.title)) limit
      ((sql h).queryVisited order q limit) := by
  unfold Db.queryVisited
  rw [cstr_of (noNul_pattern hq), if_neg (by omega), sql_visits_eq h hn]
  have ht := isTop_of (mem_visits h) ho (p := sqlHit (likePattern q))
    (hit := fun v => Occurs (lower q) (lower v.url) ∨ Occurs (lower q) (lower v.title)) (fun v hv => by
      have := mem_texts (P := NoNul) (by simp [NoNul]) hn ((mem_visits h).mem v |>.1 hv)
      exact sqlHit_iff hq this.1 this.2) limit
  unfold sqlLimit
  split
  · exact ht
  · rename_i hbig
    have hle : (order ((mem h).visits.filter (sqlHit (likePattern q)))).length ≤ limit := by
      rw [(ho.perm _).length_eq]
      exact (List.length_filter_le _ _).trans ((mem_length h).trans (by omega))
    rw [List.take_of_length_le hle] at ht
    exact ht

/-- C58: on ASCII texts the two stores give pages of the same ranks in the same order, and the same pages when no
two of the matching pages have the same rank. -/
theorem C58_stores_agree (low : Str → Str) (hlow : LowAscii low) (order : List VisitedPage → List VisitedPage)
    (ho : ValidOrder order) (h : List Call) (hn : VisitTexts Ascii h) (q : Str) (hq : Ascii q)
    (hlen : utf8Len (likePattern q) ≤ 50000) (limit : Nat) (hlim : limit < 2 ^ 63) :
    ((sql h).queryVisited order q limit).map rank = ((mem h).queryVisited low q limit).map rank ∧
    ((∀ u v u' v', visited h u = some v → visited h u' = some v' → rank v = rank v' → v = v') →
      (sql h).queryVisited order q limit = (mem h).queryVisited low q limit) := by
  have hn' : VisitTexts NoNul h := fun u t n hm => ⟨ascii_noNul (hn u t n hm).1, ascii_noNul (hn u t n hm).2⟩
  unfold Db.queryVisited MemoryInner.queryVisited sqlLimit
  rw [cstr_of (noNul_pattern (ascii_noNul hq)), if_neg (by omega), if_pos hlim, sql_visits_eq h hn']
  have he : (mem h).visits.filter (sqlHit (likePattern q)) = (mem h).visits.filter (memHit low q) := by
    apply List.filter_congr
    intro v hv
    have hv' := (mem_visits h).mem v |>.1 hv
    have ha := mem_texts (P := Ascii) (by simp [Ascii]) hn hv'
    rw [Bool.eq_iff_iff, sqlHit_iff (ascii_noNul hq) (ascii_noNul ha.1) (ascii_noNul ha.2), memHit_iff,
      hlow q hq, hlow _ ha.1, hlow _ ha.2]
  rw [he]
  have hp := (ho.perm ((mem h).visits.filter (memHit low q))).trans
    (rank_order.perm ((mem h).visits.filter (memHit low q))).symm
  refine ⟨?_, fun hd => ?_⟩
  · rw [List.map_take, List.map_take, ranks_eq hp (ho.sorted _) (rank_order.sorted _)]
  · rw [lists_eq hp (ho.sorted _) (rank_order.sorted _)]
    intro a ha b hb hr
    have hm : ∀ x ∈ order ((mem h).visits.filter (memHit low q)), visited h x.url = some x := fun x hx =>
      (mem_visits h).mem x |>.1 (List.mem_filter.1 ((ho.perm _).mem_iff.1 hx)).1
    exact hd _ _ _ _ (hm a ha) (hm b hb) hr

/-- C58 fails for SQLite on letters outside ASCII: with Unicode's lower case of É the page titled `É` is found by `é` in
memory but not in SQLite. -/
theorem C58_sqlite_case_violated (low : Str → Str) (h1 : low ['É'] = ['é']) (h2 : low ['é'] = ['é'])
    (order : List VisitedPage → List VisitedPage) (ho : ValidOrder order) :
    (mem [.recordVisit ['a'] ['É'] 5]).queryVisited low ['é'] 10 = [⟨['a'], ['É'], 1, 5⟩] ∧
    (sql [.recordVisit ['a'] ['É'] 5]).queryVisited order ['é'] 10 = [] := by
  constructor
  · have hv : (mem [.recordVisit ['a'] ['É'] 5]).visits = [⟨['a'], ['É'], 1, 5⟩] := by decide
    have hc : contains ['é'] ['é'] = true := by decide
    simp [MemoryInner.queryVisited, hv, memHit, h1, h2, hc, isort, insertSorted]
  · have hv : (sql [.recordVisit ['a'] ['É'] 5]).visits = [⟨['a'], ['É'], 1, 5⟩] := by decide
    have hb : ¬ 50000 < utf8Len (cstr (likePattern ['é'])) := by decide +kernel
    have hf : sqlHit (likePattern ['é']) ⟨['a'], ['É'], 1, 5⟩ = false := by
      rw [Bool.eq_false_iff]
      intro h
      rw [sqlHit_iff (by unfold NoNul; decide) (by unfold NoNul; decide) (by unfold NoNul; decide)] at h
      rcases h with h | h <;> rw [← contains_iff] at h <;> revert h <;> decide +kernel
    unfold Db.queryVisited
    rw [if_neg hb, hv, List.filter_cons, hf]
    have : order [] = [] := (ho.perm []).eq_nil
    simp [this, sqlLimit]

theorem utf8Len_as (n : Nat) : utf8Len (cstr (likePattern (List.replicate n 'a'))) = n + 2 := by
  have hn : NoNul (List.replicate n 'a') := by
    intro hm; rw [List.mem_replicate] at hm; exact absurd hm.2 (by decide)
  rw [cstr_of (noNul_pattern hn)]
  have he : (List.replicate n 'a').flatMap escapeChar = List.replicate n 'a' := by
    induction n with
    | zero => rfl
    | succ n ih =>
      rw [List.replicate_succ, List.flatMap_cons, ih (by
        intro hm; rw [List.mem_replicate] at hm; exact absurd hm.2 (by decide))]
      rfl
  have h1 : Char.utf8Size 'a' = 1 := by decide
  have h2 : Char.utf8Size '%' = 1 := by decide
  simp only [utf8Len, likePattern, he, List.map_cons, List.map_append, List.map_replicate, List.sum_cons,
    List.sum_append, List.map_nil, List.sum_nil, h1, h2, List.sum_replicate_nat]
  omega

/-- C58 fails for SQLite on long queries: a query of 50000 characters finds nothing, not even the page that has it as its
title. -/
theorem C58_sqlite_long_violated (order : List VisitedPage → List VisitedPage) (t : Str)
    (ht : t = List.replicate 50000 'a') :
    (∃ v, visited [.recordVisit ['u'] t 5] ['u'] = some v ∧ Occurs (lower t) (lower v.title)) ∧
    (sql [.recordVisit ['u'] t 5]).queryVisited order t 10 = [] := by
  constructor
  · refine ⟨⟨['u'], t, 1, 5⟩, ?_, [], [], by simp⟩
    have := visited_visit [] ['u'] t 5 ['u']
    rw [visited_nil] at this
    simpa using this
  · unfold Db.queryVisited
    rw [if_pos]
    rw [ht, utf8Len_as]
    decide

/-! ## C77: what a query means -/

/-- C77: the pattern sent to SQLite matches a text exactly when the query occurs in it as it is, up to ASCII
case: the characters `%`, `_` and `\` of the query stand for themselves. -/
theorem C77_literal (q s : Str) : likeMatch (likePattern q) s = true ↔ Occurs (lower q) (lower s) := like_iff q s

/-- C77: an empty query matches every page in both stores. -/
theorem C77_empty (low : Str → Str) (h0 : low [] = []) (v : VisitedPage) :
    memHit low [] v = true ∧ sqlHit (likePattern []) v = true := by
  constructor
  · simp [memHit, h0]
  · have : likePattern [] = ['%', '%'] := rfl
    simp [sqlHit, this]

/-! ## C76: bookmarks -/

/-- C76, in memory: the bookmarks are those added and not removed since, one for each URL, with the time of the first
addition and the title of the last. -/
theorem C76_memory (h : List Call) (u : Str) :
    (∀ b, (b ∈ (mem h).bookmarks ∧ b.url = u) ↔ bookmarked h u = some b) ∧
    ((mem h).bookmarks.map Bookmark.url).Nodup ∧
    ((mem h).isBookmarked u = true ↔ (bookmarked h u).isSome = true) := by
  have T := mem_bookmarks h
  refine ⟨fun b => ?_, T.nodup, ?_⟩
  · rw [T.mem]
    constructor
    · rintro ⟨h1, rfl⟩; exact h1
    · intro h1
      have := T.keyed u b h1
      exact ⟨by rw [this]; exact h1, this⟩
  · simp only [MemoryInner.isBookmarked, List.any_eq_true, decide_eq_true_eq, Option.isSome_iff_exists]
    constructor
    · rintro ⟨b, hb, rfl⟩; exact ⟨b, (T.mem b).1 hb⟩
    · rintro ⟨b, hb⟩
      have := T.keyed u b hb
      exact ⟨b, (T.mem b).2 (by rw [this]; exact hb), this⟩

/-- C76, SQLite: the list holds the same bookmarks, and the same URLs are reported as bookmarked. -/
theorem C76_sqlite (h : List Call) (u : Str) :
    (sql h).listBookmarks.Perm (mem h).bookmarks ∧ (sql h).isBookmarked u = (mem h).isBookmarked u := by
  refine ⟨?_, ?_⟩
  · unfold Db.listBookmarks
    rw [sql_bookmarks_eq]
    exact isort_perm _ _
  · unfold Db.isBookmarked MemoryInner.isBookmarked
    rw [sql_bookmarks_eq]

/-- C76: SQLite lists the oldest bookmark first; the in-memory store does when the clock never goes back. -/
theorem C76_oldest_first (h : List Call) :
    (sql h).listBookmarks.Pairwise (fun a b => a.createdAt ≤ b.createdAt) ∧
    (ClockForward h → (mem h).bookmarks.Pairwise fun a b => a.createdAt ≤ b.createdAt) :=
  ⟨bookmarks_sorted _, mem_oldest_first h⟩

/-- C76: clearing the history and visiting pages leave the bookmarks, and bookmarking leaves the history. -/
theorem C76_separate (h : List Call) (u t u' : Str) (n : Nat) :
    bookmarked (h ++ [.clearHistory]) u' = bookmarked h u' ∧
    bookmarked (h ++ [.recordVisit u t n]) u' = bookmarked h u' ∧
    visited (h ++ [.addBookmark u t n]) u' = visited h u' ∧
    visited (h ++ [.removeBookmark u]) u' = visited h u' :=
  ⟨bookmarked_other _ _ (by simp) (by simp) _, bookmarked_other _ _ (by simp) (by simp) _,
    visited_other _ _ (by simp) (by simp) _, visited_other _ _ (by simp) (by simp) _⟩

/-! ## Cases -/

/-- three pages, one visited before the history was cleared -/
def exampleCalls : List Call :=
  [.recordVisit ['o'] ['O'] 1, .clearHistory, .recordVisit ['a'] ['X'] 2, .addBookmark ['a'] ['X'] 2,
   .recordVisit ['b'] ['1', '%'] 3, .recordVisit ['a'] [] 4, .addBookmark ['b'] ['1'] 5, .removeBookmark ['a'],
   .addBookmark ['a'] ['Y'] 6, .addBookmark ['a'] ['Z'] 7, .recordVisit ['c'] ['C'] 8]

example : visited exampleCalls ['a'] = some ⟨['a'], ['X'], 2, 4⟩ ∧ visited exampleCalls ['o'] = none ∧
    bookmarked exampleCalls ['a'] = some ⟨['a'], ['Z'], 6⟩ := by decide +kernel

example : (mem exampleCalls).queryVisited lower [] 2 = [⟨['a'], ['X'], 2, 4⟩, ⟨['c'], ['C'], 1, 8⟩] ∧
    (mem exampleCalls).bookmarks.map Bookmark.url = [['b'], ['a']] := by decide +kernel

/-- The hypotheses on SQLite's order, the texts and the times can be met. -/
example : ValidOrder (isort rankLe) ∧ VisitTexts Ascii exampleCalls ∧ VisitTexts NoNul exampleCalls ∧
    ClockForward exampleCalls ∧ LowAscii lower ∧ utf8Len (likePattern ['%']) ≤ 50000 := by
  have ha : VisitTexts Ascii exampleCalls := by
    intro u t n hm
    simp only [exampleCalls, List.mem_cons, List.not_mem_nil, or_false, reduceCtorEq, false_or,
      Call.recordVisit.injEq] at hm
    rcases hm with ⟨rfl, rfl, _⟩ | ⟨rfl, rfl, _⟩ | ⟨rfl, rfl, _⟩ | ⟨rfl, rfl, _⟩ | ⟨rfl, rfl, _⟩ <;>
      unfold Ascii <;> decide
  exact ⟨rank_order, ha, fun u t n hm => ⟨ascii_noNul (ha u t n hm).1, ascii_noNul (ha u t n hm).2⟩,
    by unfold ClockForward exampleCalls; decide, fun _ _ => rfl, by decide +kernel⟩

/-- A percent sign is found only where there is one. -/
example : sqlHit (likePattern ['%']) ⟨['b'], ['1', '%'], 1, 3⟩ = true ∧
    sqlHit (likePattern ['%']) ⟨['a'], ['X'], 1, 3⟩ = false := by
  constructor
  · rw [sqlHit_iff (by unfold NoNul; decide) (by unfold NoNul; decide) (by unfold NoNul; decide)]
    exact Or.inr ⟨['1'], [], rfl⟩
  · rw [Bool.eq_false_iff]
    intro h
    rw [sqlHit_iff (by unfold NoNul; decide) (by unfold NoNul; decide) (by unfold NoNul; decide)] at h
    rcases h with h | h <;> rw [← contains_iff] at h <;> revert h <;> decide

end Verif.Places
