import Verif.Timing.Spec

/-! # C140: timings -/
namespace Verif.Timing
open Verif.Map

theorem run_snoc (h : List Ev) (e : Ev) : run (h ++ [e]) = step (run h) e := by
  unfold run; rw [List.foldl_append]; rfl

theorem starts_snoc (h : List Ev) (e : Ev) :
    starts (h ++ [e]) = starts h + (match e with | .start .. => 1 | _ => 0) := by
  unfold starts
  rw [List.countP_append]
  cases e <;> rfl

theorem started_snoc (h : List Ev) (e : Ev) (ns : Str) (id t : Nat) : Started (h ++ [e]) ns id t ↔
    (e = .start ns t ∧ id = starts h) ∨ (e ≠ .clear ∧ Started h ns id t) := by
  constructor
  · intro hs
    generalize hg : h ++ [e] = g at hs
    cases hs with
    | now h' ns t =>
      obtain ⟨h1, h2⟩ := List.append_inj' hg rfl
      cases h2; subst h1
      exact .inl ⟨rfl, rfl⟩
    | later e' hs he =>
      obtain ⟨h1, h2⟩ := List.append_inj' hg rfl
      cases h2; subst h1
      exact .inr ⟨he, hs⟩
  · rintro (⟨rfl, rfl⟩ | ⟨he, hs⟩)
    · exact .now h ns t
    · exact .later e hs he

theorem measured_snoc (h : List Ev) (e : Ev) (ns : Str) (id d : Nat) : Measured (h ++ [e]) ns id d ↔
    (∃ t t', e = .stop id t' ∧ Started h ns id t ∧ d = t' - t) ∨
    (e ≠ .clear ∧ (∀ t, e ≠ .stop id t) ∧ Measured h ns id d) := by
  constructor
  · intro hs
    generalize hg : h ++ [e] = g at hs
    cases hs with
    | @now h' _ _ t t' hs =>
      obtain ⟨h1, h2⟩ := List.append_inj' hg rfl
      cases h2; subst h1
      exact .inl ⟨t, t', rfl, hs, rfl⟩
    | later e' hs he h3 =>
      obtain ⟨h1, h2⟩ := List.append_inj' hg rfl
      cases h2; subst h1
      exact .inr ⟨he, h3, hs⟩
  · rintro (⟨t, t', rfl, hs, rfl⟩ | ⟨he, h3, hs⟩)
    · exact .now t' hs
    · exact .later e hs he h3

theorem look_of_mem {α β : Type} [DecidableEq α] {m : List (α × β)} (hn : Nk m) {k : α} {x : β} (h : (k, x) ∈ m) :
    look m k = some x := by
  induction m with
  | nil => cases h
  | cons a m ih =>
    obtain ⟨k', x'⟩ := a
    unfold look
    simp only [Nk, List.map_cons, List.nodup_cons] at hn
    rcases List.mem_cons.1 h with h | h
    · cases h; rw [if_pos rfl]
    · rw [if_neg (by rintro rfl; exact hn.1 (List.mem_map.2 ⟨_, h, rfl⟩))]
      exact ih hn.2 h

/-- what the table knows after a history -/
structure Inv (h : List Ev) (s : Table) : Prop where
  next : s.next = starts h
  keys : Nk s.namespaces
  ids : ∀ ns id, (∃ l, look s.namespaces ns = some l ∧ id ∈ l) ↔ ∃ t, Started h ns id t
  full : ∀ ns l, look s.namespaces ns = some l → l ≠ [] ∧ l.Nodup
  below : ∀ ns id t, Started h ns id t → id < starts h
  timer : ∀ ns id t, Started h ns id t → ∃ d, look s.timers id = some ⟨t, d⟩ ∧ ∀ x, d = some x ↔ Measured h ns id x
  meas : ∀ ns id d, Measured h ns id d → ∃ t, Started h ns id t

theorem started_nil (ns : Str) (id t : Nat) : ¬ Started [] ns id t := by
  intro h
  generalize hg : ([] : List Ev) = g at h
  cases h <;> simp at hg

theorem measured_nil (ns : Str) (id d : Nat) : ¬ Measured [] ns id d := by
  intro h
  generalize hg : ([] : List Ev) = g at h
  cases h <;> simp at hg

theorem inv_run (h : List Ev) : Inv h (run h) := by
  generalize hr : h.reverse = r
  induction r generalizing h with
  | nil =>
    have : h = [] := by simpa using hr
    subst this
    exact ⟨rfl, by simp [run, Table.new, Nk], fun ns id => by simp [run, Table.new, look, started_nil],
      fun ns l hl => by simp [run, Table.new, look] at hl, fun ns id t h => absurd h (started_nil _ _ _),
      fun ns id t h => absurd h (started_nil _ _ _), fun ns id d h => absurd h (measured_nil _ _ _)⟩
  | cons e r ih =>
    have hh : h = r.reverse ++ [e] := by rw [← List.reverse_reverse h, hr, List.reverse_cons]
    have ih := ih r.reverse (List.reverse_reverse r)
    generalize r.reverse = g at hh ih
    subst hh
    rw [run_snoc]
    generalize run g = s at ih
    cases e with
    | start ns' now =>
      have hm : ∀ ns id d, Measured (g ++ [.start ns' now]) ns id d ↔ Measured g ns id d := by
        intro ns id d; rw [measured_snoc]; simp
      have hst : ∀ ns id t, Started (g ++ [.start ns' now]) ns id t ↔
          (ns = ns' ∧ t = now ∧ id = starts g) ∨ Started g ns id t := by
        intro ns id t
        rw [started_snoc]
        constructor
        · rintro (⟨h1, h2⟩ | ⟨_, h⟩)
          · cases h1; exact .inl ⟨rfl, rfl, h2⟩
          · exact .inr h
        · rintro (⟨rfl, rfl, rfl⟩ | h)
          · exact .inl ⟨rfl, rfl⟩
          · exact .inr ⟨by simp, h⟩
      have hnew : ∀ l, look s.namespaces ns' = some l → s.next ∉ l := by
        intro l hl hin
        obtain ⟨t, ht⟩ := (ih.ids ns' s.next).1 ⟨l, hl, hin⟩
        have := ih.below _ _ _ ht
        rw [ih.next] at this
        omega
      refine ⟨?_, ?_, ?_, ?_, ?_, ?_, ?_⟩
      · show s.next + 1 = _
        rw [starts_snoc, ih.next]
      · exact nk_put ih.keys _ _
      · intro ns id
        show (∃ l, look (put s.namespaces ns' _) ns = some l ∧ id ∈ l) ↔ _
        rw [look_put]
        simp only [hst]
        by_cases hn : ns' = ns
        · subst hn
          rw [if_pos rfl]
          have h1 := ih.ids ns' id
          constructor
          · rintro ⟨l, hl, hi⟩
            cases hl
            rw [List.mem_append, List.mem_singleton] at hi
            rcases hi with hi | hi
            · cases hlk : look s.namespaces ns' with
              | none => rw [hlk] at hi; cases hi
              | some l' =>
                rw [hlk] at hi
                obtain ⟨t, ht⟩ := h1.1 ⟨l', hlk, hi⟩
                exact ⟨t, .inr ht⟩
            · exact ⟨now, .inl ⟨rfl, rfl, by rw [hi, ih.next]⟩⟩
          · rintro ⟨t, ⟨_, _, h⟩ | h⟩
            · exact ⟨_, rfl, by simp [h, ih.next]⟩
            · obtain ⟨l, hl, hi⟩ := h1.2 ⟨t, h⟩
              exact ⟨_, rfl, by simp [hl, hi]⟩
        · rw [if_neg hn, ih.ids]
          constructor
          · rintro ⟨t, ht⟩; exact ⟨t, .inr ht⟩
          · rintro ⟨t, ⟨h, _⟩ | h⟩
            · exact absurd h.symm hn
            · exact ⟨t, h⟩
      · intro ns l
        show look (put s.namespaces ns' _) ns = some l → _
        rw [look_put]
        by_cases hn : ns' = ns
        · subst hn
          rw [if_pos rfl]
          intro hl; cases hl
          refine ⟨by simp, ?_⟩
          cases hlk : look s.namespaces ns' with
          | none => simp
          | some l' =>
            rw [Option.getD_some, List.nodup_append]
            refine ⟨(ih.full _ _ hlk).2, by simp, ?_⟩
            intro a ha b hb
            rw [List.mem_singleton] at hb
            rintro rfl
            exact hnew l' hlk (hb ▸ ha)
        · rw [if_neg hn]; exact ih.full ns l
      · intro ns id t ht
        rw [starts_snoc]
        rcases (hst ns id t).1 ht with ⟨_, _, rfl⟩ | h
        · simp
        · have := ih.below _ _ _ h
          simp only
          omega
      · intro ns id t ht
        show ∃ d, look (put s.timers s.next ⟨now, none⟩) id = some ⟨t, d⟩ ∧ _
        rw [look_put]
        simp only [hm]
        rcases (hst ns id t).1 ht with ⟨_, rfl, rfl⟩ | h
        · rw [if_pos ih.next]
          refine ⟨none, rfl, fun x => ⟨fun h => by (cases h), fun h => ?_⟩⟩
          obtain ⟨t', ht'⟩ := ih.meas _ _ _ h
          have := ih.below _ _ _ ht'
          omega
        · rw [if_neg (by have := ih.below _ _ _ h; rw [ih.next]; omega)]
          exact ih.timer ns id t h
      · intro ns id d hd
        obtain ⟨t, ht⟩ := ih.meas _ _ _ ((hm ns id d).1 hd)
        exact ⟨t, (hst ns id t).2 (.inr ht)⟩
    | stop i now =>
      have hst : ∀ ns id t, Started (g ++ [.stop i now]) ns id t ↔ Started g ns id t := by
        intro ns id t; rw [started_snoc]; simp
      have hm : ∀ ns id d, Measured (g ++ [.stop i now]) ns id d ↔
          (i = id ∧ ∃ t, Started g ns id t ∧ d = now - t) ∨ (i ≠ id ∧ Measured g ns id d) := by
        intro ns id d
        rw [measured_snoc]
        constructor
        · rintro (⟨t, t', h1, h2, h3⟩ | ⟨_, h2, h3⟩)
          · cases h1; exact .inl ⟨rfl, t, h2, h3⟩
          · exact .inr ⟨fun h => h2 now (by rw [h]), h3⟩
        · rintro (⟨rfl, t, h1, h2⟩ | ⟨h1, h2⟩)
          · exact .inl ⟨t, now, rfl, h1, h2⟩
          · exact .inr ⟨by simp, fun t h => by (cases h; exact h1 rfl), h2⟩
      refine ⟨?_, ih.keys, ?_, ih.full, ?_, ?_, ?_⟩
      · show s.next = _
        rw [starts_snoc, ih.next]; rfl
      · intro ns id; simp only [hst]; exact ih.ids ns id
      · intro ns id t ht
        rw [starts_snoc]; exact ih.below ns id t ((hst _ _ _).1 ht)
      · intro ns id t ht
        rw [hst] at ht
        show ∃ d, look (upd s.timers i _) id = some ⟨t, d⟩ ∧ _
        rw [look_upd]
        obtain ⟨d, hd, hx⟩ := ih.timer ns id t ht
        simp only [hm]
        by_cases hi : i = id
        · subst hi
          rw [if_pos rfl, hd]
          refine ⟨some (now - t), rfl, fun x => ?_⟩
          constructor
          · intro h; cases h; exact .inl ⟨rfl, t, ht, rfl⟩
          · rintro (⟨_, t', ht', rfl⟩ | ⟨h, _⟩)
            · obtain ⟨d', hd', _⟩ := ih.timer ns i t' ht'
              rw [hd] at hd'
              cases hd'; rfl
            · exact absurd rfl h
        · rw [if_neg hi]
          refine ⟨d, hd, fun x => ?_⟩
          rw [hx x]
          simp [hi]
      · intro ns id d hd
        simp only [hst]
        rcases (hm ns id d).1 hd with ⟨_, t, ht, _⟩ | ⟨_, h⟩
        · exact ⟨t, ht⟩
        · exact ih.meas _ _ _ h
    | clear =>
      have hst : ∀ ns id t, ¬ Started (g ++ [.clear]) ns id t := by
        intro ns id t; rw [started_snoc]; simp
      have hm : ∀ ns id d, ¬ Measured (g ++ [.clear]) ns id d := by
        intro ns id d; rw [measured_snoc]; simp
      refine ⟨?_, by simp [step, clear, Nk], ?_, ?_, fun _ _ _ h => absurd h (hst _ _ _),
        fun _ _ _ h => absurd h (hst _ _ _), fun _ _ _ h => absurd h (hm _ _ _)⟩
      · show s.next = _
        rw [starts_snoc, ih.next]; rfl
      · intro ns id; simp [hst, step, clear, look]
      · intro ns l hl; simp [step, clear, look] at hl

theorem sorted_sort (l : List Nat) : (l.mergeSort fun a b => decide (a ≤ b)).Pairwise (· ≤ ·) := by
  have := List.pairwise_mergeSort (le := fun a b : Nat => decide (a ≤ b))
    (by intro a b c h1 h2; simp at *; omega) (by intro a b; simp; omega) l
  exact this.imp (by intro a b h; simpa using h)

theorem quantile_sorted {s : List Nat} (hs : s.Pairwise (· ≤ ·)) {num den i : Nat} (hi : i < s.length)
    (h1 : i * den ≤ s.length * num) (h2 : s.length * num ≤ (i + 1) * den) : Quantile s num den s[i] := by
  have hle : ∀ x ∈ s.take (i + 1), x ≤ s[i] := by
    intro x hx
    obtain ⟨j, hj, rfl⟩ := List.mem_iff_getElem.1 hx
    rw [List.getElem_take]
    rw [List.length_take] at hj
    by_cases hji : j = i
    · subst hji; exact Nat.le_refl _
    · exact List.pairwise_iff_getElem.1 hs j i (by omega) hi (by omega)
  have hge : ∀ x ∈ s.drop i, s[i] ≤ x := by
    intro x hx
    obtain ⟨j, hj, rfl⟩ := List.mem_iff_getElem.1 hx
    rw [List.getElem_drop]
    rw [List.length_drop] at hj
    by_cases hj0 : j = 0
    · subst hj0; exact Nat.le_refl _
    · exact List.pairwise_iff_getElem.1 hs i (i + j) hi (by omega) (by omega)
  refine ⟨List.getElem_mem hi, ?_, ?_⟩
  · have : (s.countP fun x => decide (x < s[i])) ≤ i := by
      conv => lhs; arg 2; rw [← List.take_append_drop i s]
      rw [List.countP_append]
      have h3 : (s.drop i).countP (fun x => decide (x < s[i])) = 0 := by
        rw [List.countP_eq_zero]
        intro x hx
        have := hge x hx
        simp; omega
      rw [h3]
      have := List.countP_le_length (p := fun x => decide (x < s[i])) (l := s.take i)
      rw [List.length_take] at this
      omega
    exact Nat.le_trans (Nat.mul_le_mul_right den this) h1
  · have : i + 1 ≤ (s.countP fun x => decide (x ≤ s[i])) := by
      conv => rhs; arg 2; rw [← List.take_append_drop (i + 1) s]
      rw [List.countP_append]
      have h3 : (s.take (i + 1)).countP (fun x => decide (x ≤ s[i])) = (s.take (i + 1)).length := by
        rw [List.countP_eq_length]
        intro x hx
        simpa using hle x hx
      rw [h3, List.length_take]
      omega
    exact Nat.le_trans h2 (Nat.mul_le_mul_right den this)

theorem quantile_perm {l l' : List Nat} (h : l.Perm l') {num den v : Nat} (hq : Quantile l num den v) : Quantile l' num den v := by
  unfold Quantile at *
  rw [← h.mem_iff, ← h.length_eq, ← h.countP_eq, ← h.countP_eq]
  exact hq

theorem describes_getStats (s : Table) (ids : List Nat) : Describes (getStats s ids) (durations s ids) := by
  unfold getStats
  have hp := List.mergeSort_perm (durations s ids) (fun a b => decide (a ≤ b))
  have hs := sorted_sort (durations s ids)
  generalize (durations s ids).mergeSort (fun a b => decide (a ≤ b)) = t at hp hs
  generalize durations s ids = l at hp
  refine ⟨hp.length_eq, hp.sum_nat, ?_, ?_⟩
  · rintro rfl
    have : t = [] := hp.eq_nil
    subst this; rfl
  · intro hne
    have hn : t ≠ [] := fun h => hne (by rw [h] at hp; exact hp.symm.eq_nil)
    have hlen : 0 < t.length := List.length_pos_iff.2 hn
    have hq : ∀ num den, 0 < den → num < den → ∀ k, k * den = 100 →
        Quantile l num den (t[percentageToIndex t.length (k * num) 100]?.getD 0) := by
      intro num den h0 hlt k hk
      have hk0 : 0 < k := Nat.pos_of_ne_zero (by rintro rfl; omega)
      have he : t.length * (k * num) / 100 = t.length * num / den := by
        rw [← hk, Nat.mul_left_comm, Nat.mul_div_mul_left _ _ hk0]
      have hdiv := Nat.div_add_mod (t.length * num) den
      have hmod := Nat.mod_lt (t.length * num) h0
      have hlt2 : t.length * num / den < t.length :=
        (Nat.div_lt_iff_lt_mul h0).2 (Nat.mul_lt_mul_of_pos_left hlt hlen)
      have hi : percentageToIndex t.length (k * num) 100 = t.length * num / den := by
        unfold percentageToIndex
        rw [he]
        exact Nat.min_eq_left (by omega)
      rw [hi, List.getElem?_eq_getElem hlt2, Option.getD_some]
      refine quantile_perm hp (quantile_sorted hs hlt2 (Nat.div_mul_le_self _ _) ?_)
      rw [Nat.add_mul, Nat.mul_comm (t.length * num / den) den]
      omega
    have h0 : t.head?.getD 0 = t[0] := by
      cases t with
      | nil => exact absurd rfl hn
      | cons a t => rfl
    have hl : t.getLast?.getD 0 = t[t.length - 1] := by
      rw [List.getLast?_eq_getElem?, List.getElem?_eq_getElem (by omega)]; rfl
    have hmin : ∀ x ∈ t, t[0] ≤ x := by
      intro x hx
      obtain ⟨j, hj, rfl⟩ := List.mem_iff_getElem.1 hx
      by_cases hj0 : j = 0
      · subst hj0; exact Nat.le_refl _
      · exact List.pairwise_iff_getElem.1 hs 0 j hlen hj (by omega)
    have hmax : ∀ x ∈ t, x ≤ t[t.length - 1] := by
      intro x hx
      obtain ⟨j, hj, rfl⟩ := List.mem_iff_getElem.1 hx
      by_cases hj0 : j = t.length - 1
      · subst hj0; exact Nat.le_refl _
      · exact List.pairwise_iff_getElem.1 hs j (t.length - 1) hj (by omega) (by omega)
    have hsum := hp.sum_nat
    have hleq := hp.length_eq
    refine ⟨?_, ?_, ?_, ?_, ?_, ?_, hq 1 2 (by omega) (by omega) 50 rfl, hq 3 4 (by omega) (by omega) 25 rfl,
      hq 19 20 (by omega) (by omega) 5 rfl, hq 99 100 (by omega) (by omega) 1 rfl⟩
    · show t.head?.getD 0 ∈ l
      rw [h0]; exact hp.mem_iff.1 (List.getElem_mem _)
    · intro x hx
      show t.head?.getD 0 ≤ x
      rw [h0]; exact hmin x (hp.mem_iff.2 hx)
    · show t.getLast?.getD 0 ∈ l
      rw [hl]; exact hp.mem_iff.1 (List.getElem_mem _)
    · intro x hx
      show x ≤ t.getLast?.getD 0
      rw [hl]; exact hmax x (hp.mem_iff.2 hx)
    · rw [← hsum, ← hleq]; exact Nat.div_mul_le_self _ _
    · rw [← hsum, ← hleq]
      exact (Nat.div_lt_iff_lt_mul hlen).1 (Nat.lt_succ_self _)

/-- **C140** After any history of starting and stopping timers and clearing the table, the statistics list each
namespace in which a timer was started since the table was cleared, once, and describe the durations of exactly
the timers of this namespace that were stopped, each counted once. -/
theorem C140_stats (h : List Ev) :
    ((namespaceStats (run h)).map (·.1)).Nodup ∧
    (∀ ns, ns ∈ (namespaceStats (run h)).map (·.1) ↔ ∃ id t, Started h ns id t) ∧
    ∀ ns r, (ns, r) ∈ namespaceStats (run h) →
      ∃ l : List (Nat × Nat), (l.map (·.1)).Nodup ∧ (∀ id d, (id, d) ∈ l ↔ Measured h ns id d) ∧ Describes r (l.map (·.2)) := by
  have hi := inv_run h
  have hmap : (namespaceStats (run h)).map (·.1) = (run h).namespaces.map (·.1) := by
    unfold namespaceStats; rw [List.map_map]; rfl
  refine ⟨by rw [hmap]; exact hi.keys, ?_, ?_⟩
  · intro ns
    rw [hmap, mem_keys_iff]
    constructor
    · intro hs
      obtain ⟨l, hl⟩ := Option.isSome_iff_exists.1 hs
      obtain ⟨hne, _⟩ := hi.full ns l hl
      obtain ⟨x, hx⟩ := List.exists_mem_of_ne_nil l hne
      obtain ⟨t, ht⟩ := (hi.ids ns x).1 ⟨l, hl, hx⟩
      exact ⟨x, t, ht⟩
    · rintro ⟨id, t, ht⟩
      obtain ⟨l, hl, _⟩ := (hi.ids ns id).2 ⟨t, ht⟩
      rw [hl]; rfl
  · intro ns r hr
    unfold namespaceStats at hr
    obtain ⟨⟨ns, ids⟩, hmem, heq⟩ := List.mem_map.1 hr
    cases heq
    have hl : look (run h).namespaces ns = some ids := look_of_mem hi.keys hmem
    refine ⟨ids.filterMap fun id => ((look (run h).timers id).bind (·.dur)).map fun d => (id, d), ?_, ?_, ?_⟩
    · have hnd := (hi.full ns ids hl).2
      clear hr hmem hl
      induction ids with
      | nil => simp
      | cons x ids ih =>
        rw [List.nodup_cons] at hnd
        rw [List.filterMap_cons]
        split
        · exact ih hnd.2
        · next v hv =>
          rw [Option.map_eq_some_iff] at hv
          obtain ⟨d, _, rfl⟩ := hv
          rw [List.map_cons, List.nodup_cons]
          refine ⟨?_, ih hnd.2⟩
          intro hx
          simp only [List.mem_map, List.mem_filterMap] at hx
          obtain ⟨⟨a, b⟩, ⟨y, hy, h2⟩, rfl⟩ := hx
          rw [Option.map_eq_some_iff] at h2
          obtain ⟨_, _, h3⟩ := h2
          cases h3
          exact hnd.1 hy
    · intro id d
      rw [List.mem_filterMap]
      constructor
      · rintro ⟨y, hy, h2⟩
        rw [Option.map_eq_some_iff] at h2
        obtain ⟨d', h3, h4⟩ := h2
        cases h4
        obtain ⟨t, ht⟩ := (hi.ids ns id).1 ⟨ids, hl, hy⟩
        obtain ⟨d0, h5, h6⟩ := hi.timer ns id t ht
        rw [h5] at h3
        exact (h6 d).1 h3
      · intro hm
        obtain ⟨t, ht⟩ := hi.meas _ _ _ hm
        obtain ⟨l', hl', hid⟩ := (hi.ids ns id).2 ⟨t, ht⟩
        rw [hl] at hl'
        cases hl'
        obtain ⟨d0, h5, h6⟩ := hi.timer ns id t ht
        refine ⟨id, hid, ?_⟩
        rw [h5, Option.bind_some, (h6 d).2 hm]; rfl
    · have : (ids.filterMap fun id => ((look (run h).timers id).bind (·.dur)).map fun d => (id, d)).map (·.2) =
          durations (run h) ids := by
        unfold durations
        rw [List.map_filterMap]
        congr 1
        funext id
        cases (look (run h).timers id).bind (·.dur) <;> rfl
      rw [this]
      exact describes_getStats (run h) ids

/-- the percentiles are in order -/
theorem C140_order (h : List Ev) (ns : Str) (r : Stats) (hr : (ns, r) ∈ namespaceStats (run h)) :
    r.min ≤ r.p50 ∧ r.p50 ≤ r.p75 ∧ r.p75 ≤ r.p95 ∧ r.p95 ≤ r.p99 ∧ r.p99 ≤ r.max := by
  unfold namespaceStats at hr
  obtain ⟨⟨ns', ids⟩, _, heq⟩ := List.mem_map.1 hr
  cases heq
  unfold getStats
  have hs := sorted_sort (durations (run h) ids)
  generalize (durations (run h) ids).mergeSort (fun a b => decide (a ≤ b)) = t at hs
  cases ht : t with
  | nil => simp
  | cons a u =>
    rw [← ht]
    have hlen : 0 < t.length := by rw [ht]; simp
    have hmono : ∀ i j, i ≤ j → j < t.length → t[i]?.getD 0 ≤ t[j]?.getD 0 := by
      intro i j hij hj
      rw [List.getElem?_eq_getElem hj, List.getElem?_eq_getElem (by omega)]
      by_cases he : i = j
      · subst he; exact Nat.le_refl _
      · exact List.pairwise_iff_getElem.1 hs i j (by omega) hj (by omega)
    have hb : ∀ k, percentageToIndex t.length k 100 ≤ t.length - 1 := fun k => Nat.min_le_right _ _
    have hm : ∀ k k', k ≤ k' → percentageToIndex t.length k 100 ≤ percentageToIndex t.length k' 100 := by
      intro k k' hk
      unfold percentageToIndex
      have : t.length * k / 100 ≤ t.length * k' / 100 := Nat.div_le_div_right (Nat.mul_le_mul_left _ hk)
      exact Nat.le_min.2 ⟨Nat.le_trans (Nat.min_le_left _ _) this, Nat.min_le_right _ _⟩
    have hlt : ∀ k, percentageToIndex t.length k 100 < t.length := fun k => by have := hb k; omega
    have h0 : t.head?.getD 0 = t[0]?.getD 0 := by rw [ht]; rfl
    have hl : t.getLast?.getD 0 = t[t.length - 1]?.getD 0 := by rw [List.getLast?_eq_getElem?]
    show t.head?.getD 0 ≤ _ ∧ _ ∧ _ ∧ _ ∧ _ ≤ t.getLast?.getD 0
    refine ⟨?_, hmono _ _ (hm _ _ (by omega)) (hlt _), hmono _ _ (hm _ _ (by omega)) (hlt _),
      hmono _ _ (hm _ _ (by omega)) (hlt _), ?_⟩
    · rw [h0]; exact hmono _ _ (Nat.zero_le _) (hlt _)
    · rw [hl]; exact hmono _ _ (hb _) (by omega)

/-- a history with two timers that were stopped, one that runs, and one in another namespace -/
def sample : List Ev :=
  [.start "old".toList 0, .stop 0 5, .clear, .start "a".toList 10, .start "a".toList 12, .start "b".toList 13,
   .stop 1 30, .stop 2 22, .start "a".toList 40, .stop 0 50]

example : (namespaceStats (run sample)).map (·.1) = ["a".toList, "b".toList] ∧
    durations (run sample) [1, 2, 4] = [20, 10] ∧ Measured sample "a".toList 2 10 := by
  refine ⟨by decide +kernel, by decide +kernel, ?_⟩
  have h1 : Started ([.start "old".toList 0, .stop 0 5, .clear, .start "a".toList 10] ++ [.start "a".toList 12]) "a".toList 2 12 :=
    Started.now _ _ _
  have h2 := Started.later (.stop 1 30) (Started.later (.start "b".toList 13) h1 (by simp)) (by simp)
  exact Measured.later (.stop 0 50) (Measured.later (.start "a".toList 40) (Measured.now 22 h2) (by simp) (by simp))
    (by simp) (by simp)

end Verif.Timing
