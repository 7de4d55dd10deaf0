import Verif.Console.Spec
import Mathlib.Data.List.Induction

/-! # C134, C135: the console -/

namespace Verif.Console

theorem run_append (c : Con) (h g : List Call) : run c (h ++ g) = (run c h).bind (fun c => run c g) := by
  induction h generalizing c with
  | nil => rfl
  | cons x h ih =>
    show (c.step x).bind (fun c => run c (h ++ g)) = ((c.step x).bind (fun c => run c h)).bind _
    cases c.step x with
    | none => rfl
    | some c' => exact ih c'

theorem run_snoc {c c' : Con} {h : List Call} {x : Call} (hr : run c (h ++ [x]) = some c') :
    ∃ c1, run c h = some c1 ∧ c1.step x = some c' := by
  rw [run_append] at hr
  cases h1 : run c h with
  | none => rw [h1] at hr; cases hr
  | some c1 =>
    rw [h1] at hr
    refine ⟨c1, rfl, ?_⟩
    have : (c1.step x).bind (fun c => run c []) = some c' := hr
    cases h2 : c1.step x with
    | none => rw [h2] at this; cases this
    | some c2 => rw [h2] at this; exact this

/-! ## Messages -/

theorem trimEnd_space (s : Str) : trimEnd (s ++ [' ']) = trimEnd s := by
  unfold trimEnd
  rw [List.reverse_append]
  show (List.dropWhile isSpace (' ' :: s.reverse)).reverse = _
  rw [List.dropWhile_cons_of_pos (by decide)]

theorem trimEnd_idem (s : Str) : trimEnd (trimEnd s) = trimEnd s := by
  unfold trimEnd
  rw [List.reverse_reverse]
  congr 1
  generalize s.reverse = r
  induction r with
  | nil => rfl
  | cons c r ih =>
    by_cases hc : isSpace c = true
    · rw [List.dropWhile_cons_of_pos hc, ih]
    · rw [List.dropWhile_cons_of_neg hc, List.dropWhile_cons_of_neg hc]

theorem flat_join (a : Str) (data : List Str) :
    (a :: data).flatMap (fun a => a ++ [' ']) = List.intercalate [' '] (a :: data) ++ [' '] := by
  induction data generalizing a with
  | nil => simp [List.intercalate]
  | cons b data ih =>
    rw [List.flatMap_cons, ih]
    simp [List.intercalate]

theorem space_iff (c : Char) : isSpace c = decide (White c.toNat) := by
  rw [Bool.eq_iff_iff, decide_eq_true_iff]
  unfold isSpace White
  simp only [List.contains_cons, List.contains_nil, Bool.or_eq_true, beq_iff_eq, decide_eq_true_eq, Bool.or_false]
  omega

theorem trim_eq (s : Str) : trimEnd s = stripped s := by
  unfold trimEnd stripped List.rdropWhile
  rw [funext space_iff]

theorem trim_flat (data : List Str) : trimEnd (data.flatMap (fun a => a ++ [' '])) = joined data := by
  cases data with
  | nil => rfl
  | cons a data => rw [flat_join, trimEnd_space, trim_eq]; rfl

theorem pre_eq (n : Nat) : (List.replicate n [' ', '>', ' ']).flatten = indent n := rfl

/-! ## Groups -/

theorem print_groups (p : Printer) (lv : Level) (args : List Str) (h : lv ≠ .group ∧ lv ≠ .groupCollapsed ∧ lv ≠ .groupEnd) :
    (p.print lv args).groups = p.groups := by
  unfold Printer.print
  simp only
  split
  · rfl
  · cases lv <;> first | rfl | (exact absurd rfl h.1) | (exact absurd rfl h.2.1) | (exact absurd rfl h.2.2)

theorem logger_groups (c : Con) (lv : Level) (args : List Str)
    (h : lv ≠ .group ∧ lv ≠ .groupCollapsed ∧ lv ≠ .groupEnd) :
    (c.logger lv args).groups = c.groups ∧ (c.logger lv args).printer.groups = c.printer.groups := by
  match args with
  | [] => exact ⟨rfl, rfl⟩
  | [a] => exact ⟨rfl, print_groups _ _ _ h⟩
  | a :: b :: r => exact ⟨rfl, print_groups _ _ _ h⟩

theorem plain_levels {lv : Level} (h : lv = .debug ∨ lv = .error ∨ lv = .info ∨ lv = .log ∨ lv = .warn) :
    lv ≠ .group ∧ lv ≠ .groupCollapsed ∧ lv ≠ .groupEnd := by
  rcases h with rfl | rfl | rfl | rfl | rfl <;> decide

/-- A call that is not about groups leaves them. -/
theorem step_other {c c' : Con} {x : Call} (hp : Plain x) (h1 : ∀ a b d, x ≠ .group a b d) (h2 : x ≠ .groupEnd)
    (hs : c.step x = some c') : c'.groups = c.groups ∧ c'.printer.groups = c.printer.groups := by
  cases x with
  | assert b data =>
    simp only [Con.step] at hs
    split at hs
    · cases hs; exact ⟨rfl, rfl⟩
    · cases hs; exact logger_groups _ _ _ (by decide)
  | clear => cases hs; exact ⟨rfl, rfl⟩
  | message lv data => cases hs; exact logger_groups _ _ _ (plain_levels hp)
  | trace data => cases hs; exact ⟨rfl, print_groups _ _ _ (by decide)⟩
  | count l => cases hs; exact logger_groups _ _ _ (by decide)
  | countReset l =>
    simp only [Con.step] at hs
    split at hs
    · cases hs; exact logger_groups _ _ _ (by decide)
    · cases hs; exact ⟨rfl, rfl⟩
  | group a b d => exact absurd rfl (h1 a b d)
  | groupEnd => exact absurd rfl h2
  | time l n =>
    simp only [Con.step] at hs
    split at hs
    · cases hs; exact logger_groups _ _ _ (by decide)
    · cases hs; exact ⟨rfl, rfl⟩
  | timeLog l d n =>
    simp only [Con.step] at hs
    split at hs
    · cases hs; exact ⟨rfl, print_groups _ _ _ (by decide)⟩
    · split at hs
      · cases hs
      · cases hs; exact ⟨rfl, print_groups _ _ _ (by decide)⟩
  | timeEnd l n =>
    simp only [Con.step] at hs
    split at hs
    · cases hs; exact ⟨rfl, print_groups _ _ _ (by decide)⟩
    · split at hs
      · cases hs
      · cases hs; exact ⟨rfl, print_groups _ _ _ (by decide)⟩

theorem step_group {c c' : Con} {a : Bool} {b : List Str} {d : Str} (hs : c.step (.group a b d) = some c') :
    c'.groups = c.groups ++ [groupLabel b d] ∧ c'.printer.groups = c.printer.groups ++ [a] := by
  cases hs
  refine ⟨rfl, ?_⟩
  cases a <;> rfl

theorem step_end {c c' : Con} (hs : c.step .groupEnd = some c') :
    c'.groups = c.groups.dropLast ∧ c'.printer.groups = c.printer.groups.dropLast := by
  cases hs; exact ⟨rfl, rfl⟩

theorem depth_snoc (h : List Call) (x : Call) (n : Nat) : depth (h ++ [x]) n = depth [x] (depth h n) := by
  induction h generalizing n with
  | nil => rfl
  | cons y h ih => cases y <;> exact ih _

theorem depths (h : List Call) (c : Con) (hp : ∀ x ∈ h, Plain x) (hr : run start h = some c) :
    c.groups.length = depth h 0 ∧ c.printer.groups.length = depth h 0 := by
  induction h using List.reverseRecOn generalizing c with
  | nil => cases hr; exact ⟨rfl, rfl⟩
  | append_singleton h x ih =>
    obtain ⟨c1, hr1, hs⟩ := run_snoc hr
    obtain ⟨i1, i2⟩ := ih c1 (fun y hy => hp y (by simp [hy])) hr1
    rw [depth_snoc]
    by_cases hg : ∃ a b d, x = .group a b d
    · obtain ⟨a, b, d, rfl⟩ := hg
      obtain ⟨e1, e2⟩ := step_group hs
      rw [e1, e2, List.length_append, List.length_append, i1, i2]
      exact ⟨rfl, rfl⟩
    · by_cases he : x = .groupEnd
      · subst he
        obtain ⟨e1, e2⟩ := step_end hs
        rw [e1, e2, List.length_dropLast, List.length_dropLast, i1, i2]
        exact ⟨rfl, rfl⟩
      · obtain ⟨e1, e2⟩ := step_other (hp x (by simp)) (fun a b d e => hg ⟨a, b, d, e⟩) he hs
        rw [e1, e2, i1, i2]
        cases x with
        | group a b d => exact absurd ⟨a, b, d, rfl⟩ hg
        | groupEnd => exact absurd rfl he
        | _ => exact ⟨rfl, rfl⟩

/-- **C134** After any history, a message with data writes exactly one line: a mark for each group that
is open, the level, and the data separated by spaces. A message without data writes nothing. -/
theorem C134_lines (h : List Call) (c : Con) (hp : ∀ x ∈ h, Plain x) (hr : run start h = some c) (lv : Level)
    (hlv : lv = .error ∨ lv = .info ∨ lv = .log ∨ lv = .warn) (data : List Str) :
    ∃ c', c.step (.message lv data) = some c' ∧
      (data ≠ [] → c'.printer.out = c.printer.out ++
        [indent (depth h 0) ++ ['['] ++ lv.name ++ [']', ' '] ++ joined data]) ∧
      (data = [] → c'.printer.out = c.printer.out) := by
  refine ⟨_, rfl, ?_, ?_⟩
  · intro hd
    have hdep := (depths h c hp hr).2
    have key : ∀ s, trimEnd (([s] : List Str).flatMap (fun a => a ++ [' '])) = joined data →
        (c.print lv [s]).printer.out = c.printer.out ++
          [indent (depth h 0) ++ ['['] ++ lv.name ++ [']', ' '] ++ joined data] := by
      intro s hs
      rw [← hs, ← hdep]
      rcases hlv with rfl | rfl | rfl | rfl <;> rfl
    match data, hd, key with
    | [a], _, key => exact key a (trim_flat [a])
    | a :: b :: r, _, key =>
      refine key (format (a :: b :: r)) ?_
      rw [trim_flat]
      show stripped (List.intercalate [' '] [format (a :: b :: r)]) = _
      rw [← trim_eq]
      rw [show List.intercalate [' '] [format (a :: b :: r)] = format (a :: b :: r) by simp [List.intercalate]]
      unfold format
      rw [trimEnd_idem, trim_flat]
  · rintro rfl; rfl

/-- **C134** A group is ended by the end that belongs to it: between the start of a group and its end,
all groups that are started are ended; then the end gives back the label of the group, and the console
and its output are as deep as before. An end without a group gives nothing. -/
theorem C134_groups (h b : List Call) (hp : ∀ x ∈ h ++ b, Plain x) (hb : Balanced b) (c c1 : Con)
    (hr : run start h = some c) (collapsed : Bool) (data : List Str) (label : Str)
    (h1 : run c (.group collapsed data label :: b) = some c1) :
    c1.groupEnd.2 = some (if data = [] then "console.group.".toList ++ label else joined data) ∧
    c1.groupEnd.1.groups = c.groups ∧ c1.groupEnd.1.printer.groups = c.printer.groups ∧
    (depth h 0 = 0 → c.groupEnd.2 = none ∧ c.groupEnd.1.groups = [] ∧ c.groupEnd.1.printer.groups = []) := by
  have bal : ∀ b, Balanced b → ∀ c c', (∀ x ∈ b, Plain x) → run c b = some c' →
      c'.groups = c.groups ∧ c'.printer.groups = c.printer.groups := by
    intro b hb
    induction hb with
    | nil => intro c c' _ hr; cases hr; exact ⟨rfl, rfl⟩
    | @other x h n1 n2 _ ih =>
      intro c c' hp hr
      have hr' : (c.step x).bind (fun c => run c h) = some c' := hr
      cases hs : c.step x with
      | none => rw [hs] at hr'; cases hr'
      | some c2 =>
        rw [hs] at hr'
        obtain ⟨e1, e2⟩ := step_other (hp x (by simp)) n1 n2 hs
        obtain ⟨f1, f2⟩ := ih c2 c' (fun y hy => hp y (by simp [hy])) hr'
        exact ⟨f1.trans e1, f2.trans e2⟩
    | @group a bb d h g _ _ ih1 ih2 =>
      intro c c' hp hr
      have hr' : (c.step (.group a bb d)).bind (fun c => run c (h ++ .groupEnd :: g)) = some c' := hr
      cases hs : c.step (.group a bb d) with
      | none => rw [hs] at hr'; cases hr'
      | some c2 =>
        rw [hs, Option.bind_some, run_append] at hr'
        obtain ⟨e1, e2⟩ := step_group hs
        cases h3 : run c2 h with
        | none => rw [h3] at hr'; cases hr'
        | some c3 =>
          rw [h3] at hr'
          obtain ⟨f1, f2⟩ := ih1 c2 c3 (fun y hy => hp y (by simp [hy])) h3
          have hr2 : run c3.groupEnd.1 g = some c' := hr'
          obtain ⟨g1, g2⟩ := ih2 c3.groupEnd.1 c' (fun y hy => hp y (by simp [hy])) hr2
          refine ⟨g1.trans ?_, g2.trans ?_⟩
          · show c3.groups.dropLast = _
            rw [f1, e1, List.dropLast_concat]
          · show c3.printer.groups.dropLast = _
            rw [f2, e2, List.dropLast_concat]
  have h1' : (c.step (.group collapsed data label)).bind (fun c => run c b) = some c1 := h1
  cases hs : c.step (.group collapsed data label) with
  | none => rw [hs] at h1'; cases h1'
  | some c2 =>
    rw [hs] at h1'
    obtain ⟨e1, e2⟩ := step_group hs
    obtain ⟨f1, f2⟩ := bal b hb c2 c1 (fun x hx => hp x (by simp [hx])) h1'
    refine ⟨?_, ?_, ?_, ?_⟩
    · show c1.groups.getLast? = _
      rw [f1, e1, List.getLast?_concat]
      unfold groupLabel format
      rw [trim_flat]
    · show c1.groups.dropLast = _
      rw [f1, e1, List.dropLast_concat]
    · show c1.printer.groups.dropLast = _
      rw [f2, e2, List.dropLast_concat]
    · intro h0
      obtain ⟨d1, d2⟩ := depths h c (fun x hx => hp x (by simp [hx])) hr
      rw [h0] at d1 d2
      have z1 := List.eq_nil_of_length_eq_zero d1
      have z2 := List.eq_nil_of_length_eq_zero d2
      refine ⟨?_, ?_, ?_⟩
      · show c.groups.getLast? = none
        rw [z1]; rfl
      · show c.groups.dropLast = []
        rw [z1]; rfl
      · show c.printer.groups.dropLast = []
        rw [z2]; rfl

/-! ## Counters -/

theorem logger_counts (c : Con) (lv : Level) (args : List Str) :
    (c.logger lv args).counts = c.counts ∧ (c.logger lv args).timers = c.timers := by
  match args with
  | [] => exact ⟨rfl, rfl⟩
  | [a] => exact ⟨rfl, rfl⟩
  | a :: b :: r => exact ⟨rfl, rfl⟩

theorem counts_step {c c' : Con} {x : Call} (hs : c.step x = some c') (l : Str) :
    c'.counts l =
      if x = .count l then some (match c.counts l with
        | some n => n + 1
        | none => 1)
      else if x = .countReset l then (c.counts l).map (fun _ => 0) else c.counts l := by
  cases x with
  | count l' =>
    cases hs
    rw [(logger_counts _ _ _).1]
    by_cases h : l' = l
    · subst h; cases hc : c.counts l' <;> simp [put, hc]
    · rw [if_neg (by simpa using h), if_neg (by simp)]
      exact if_neg (fun e => h e.symm)
  | countReset l' =>
    rw [if_neg (by simp)]
    simp only [Con.step] at hs
    by_cases h : l' = l
    · subst h
      rw [if_pos rfl]
      cases hc : c.counts l' with
      | none => rw [hc] at hs; cases hs; rw [(logger_counts _ _ _).1, hc]; rfl
      | some n => rw [hc] at hs; cases hs; simp [put]
    · rw [if_neg (by simpa using h)]
      cases hc : c.counts l' with
      | none => rw [hc] at hs; cases hs; rw [(logger_counts _ _ _).1]
      | some n => rw [hc] at hs; cases hs; exact if_neg (fun e => h e.symm)
  | assert b data =>
    simp only [Con.step] at hs
    split at hs
    · cases hs; simp
    · cases hs; rw [(logger_counts _ _ _).1]; simp
  | message lv data => cases hs; rw [(logger_counts _ _ _).1]; simp
  | clear => cases hs; simp
  | trace data => cases hs; simp [Con.print]
  | group a b d => cases hs; simp [Con.print]
  | groupEnd => cases hs; simp [Con.groupEnd]
  | time l' n =>
    simp only [Con.step] at hs
    split at hs
    · cases hs; rw [(logger_counts _ _ _).1]; simp
    · cases hs; simp
  | timeLog l' d n =>
    simp only [Con.step] at hs
    split at hs
    · cases hs; simp [Con.print]
    · split at hs
      · cases hs
      · cases hs; simp [Con.print]
  | timeEnd l' n =>
    simp only [Con.step] at hs
    split at hs
    · cases hs; simp [Con.print]
    · split at hs
      · cases hs
      · cases hs; simp [Con.print]

theorem since_snoc {l : Str} {h : List Call} {n : Nat} (x : Call) (hs : Since l h n) (hx : x ≠ .countReset l) :
    Since l (h ++ [x]) (if x = .count l then n + 1 else n) := by
  have cnt : ∀ a : List Call, (a ++ [x]).countP (· = .count l) = a.countP (· = .count l) + if x = .count l then 1 else 0 := by
    intro a
    rw [List.countP_append, List.countP_singleton]
    simp
  rcases hs with ⟨b, a, rfl, ha, rfl⟩ | ⟨hn, rfl⟩
  · refine .inl ⟨b, a ++ [x], by simp, ?_, ?_⟩
    · rw [List.mem_append, not_or]; exact ⟨ha, by simpa using hx.symm⟩
    · rw [cnt]; split <;> rfl
  · refine .inr ⟨?_, ?_⟩
    · rw [List.mem_append, not_or]; exact ⟨hn, by simpa using hx.symm⟩
    · rw [cnt]; split <;> rfl

theorem since_unique {l : Str} {h : List Call} {n m : Nat} (h1 : Since l h n) (h2 : Since l h m) : n = m := by
  have key : ∀ (b b' a a' : List Call), b ++ .countReset l :: a = b' ++ .countReset l :: a' →
      Call.countReset l ∉ a → Call.countReset l ∉ a' → a = a' := by
    intro b
    induction b with
    | nil =>
      intro b' a a' e ha ha'
      cases b' with
      | nil => simpa using e
      | cons y b' =>
        simp only [List.nil_append, List.cons_append, List.cons.injEq] at e
        exact absurd (by rw [e.2]; simp) ha
    | cons z b ih =>
      intro b' a a' e ha ha'
      cases b' with
      | nil =>
        simp only [List.nil_append, List.cons_append, List.cons.injEq] at e
        exact absurd (by rw [← e.2]; simp) ha'
      | cons y b' =>
        simp only [List.cons_append, List.cons.injEq] at e
        exact ih b' a a' e.2 ha ha'
  rcases h1 with ⟨b, a, rfl, ha, rfl⟩ | ⟨hn, rfl⟩
  · rcases h2 with ⟨b', a', e, ha', rfl⟩ | ⟨hn', rfl⟩
    · rw [key b b' a a' e ha ha']
    · exact absurd (by simp) hn'
  · rcases h2 with ⟨b', a', rfl, ha', rfl⟩ | ⟨hn', rfl⟩
    · exact absurd (by simp) hn
    · rfl

theorem counts_inv (h : List Call) (c : Con) (hr : run start h = some c) (l : Str) :
    Since l h ((c.counts l).getD 0) ∧ (c.counts l = none ↔ .count l ∉ h) := by
  induction h using List.reverseRecOn generalizing c with
  | nil => cases hr; exact ⟨.inr ⟨by simp, rfl⟩, by simp [start]⟩
  | append_singleton h x ih =>
    obtain ⟨c1, hr1, hs⟩ := run_snoc hr
    obtain ⟨i1, i2⟩ := ih c1 hr1
    rw [counts_step hs l]
    by_cases hx : x = .count l
    · subst hx
      rw [if_pos rfl]
      refine ⟨?_, by simp⟩
      have := since_snoc (.count l) i1 (by simp)
      rw [if_pos rfl] at this
      cases hc : c1.counts l with
      | none => rw [hc] at this; exact this
      | some n => rw [hc] at this; exact this
    · rw [if_neg hx]
      by_cases hx2 : x = .countReset l
      · subst hx2
        rw [if_pos rfl]
        refine ⟨.inl ⟨h, [], rfl, by simp, ?_⟩, ?_⟩
        · cases c1.counts l <;> rfl
        · rw [Option.map_eq_none_iff, i2]
          simp
      · rw [if_neg hx2]
        have := since_snoc x i1 hx2
        rw [if_neg hx] at this
        refine ⟨this, ?_⟩
        rw [i2, List.mem_append, not_or]
        simp [Ne.symm hx]

/-- **C134** After any history, `count` shows the label and the number of calls of `count` with it since
its last reset, this call included; `countReset` complains exactly if the label was never counted. -/
theorem C134_counts (h : List Call) (c : Con) (hr : run start h = some c) (l : Str) :
    (∀ n, Since l h n → ∃ c', c.step (.count l) = some c' ∧
      c'.printer.calls = c.printer.calls ++ [(.count, [l ++ ": ".toList ++ (n + 1).repr.toList])]) ∧
    (∃ c', c.step (.countReset l) = some c' ∧
      c'.printer.calls = c.printer.calls ++
        (if .count l ∈ h then [] else [(.countReset, ["label does not exist".toList])])) := by
  obtain ⟨i1, i2⟩ := counts_inv h c hr l
  refine ⟨?_, ?_⟩
  · intro n hn
    have e := since_unique hn i1
    refine ⟨_, rfl, ?_⟩
    subst e
    cases hc : c.counts l with
    | none => rfl
    | some n => rfl
  · simp only [Con.step]
    cases hc : c.counts l with
    | none =>
      rw [if_neg (i2.1 hc)]
      exact ⟨_, rfl, rfl⟩
    | some n =>
      rw [if_pos (Classical.byContradiction fun hn => by rw [i2.2 hn] at hc; cases hc)]
      exact ⟨_, rfl, by simp⟩

/-! ## Timers -/

theorem timers_step {c c' : Con} {x : Call} (hs : c.step x = some c') (l : Str) :
    (∀ t, c.timers l = some t → c'.timers l = some t) ∧
    (c.timers l = none → ∀ t, c'.timers l = some t ↔ x = .time l t) := by
  have same : ∀ c'' : Con, c''.timers = c.timers → (∀ t, x ≠ .time l t) →
      (∀ t, c.timers l = some t → c''.timers l = some t) ∧
      (c.timers l = none → ∀ t, c''.timers l = some t ↔ x = .time l t) := by
    intro c'' e hx
    rw [e]
    refine ⟨fun t h => h, fun h t => ?_⟩
    rw [h]
    exact ⟨fun h => (by cases h), fun h => absurd h (hx t)⟩
  cases x with
  | time l' n =>
    simp only [Con.step] at hs
    by_cases h : l' = l
    · subst h
      cases hc : c.timers l' with
      | some t0 =>
        rw [hc] at hs; cases hs
        rw [(logger_counts _ _ _).2]
        exact ⟨fun t h => by rw [← h, hc], fun h => by cases h⟩
      | none =>
        rw [hc] at hs; cases hs
        refine ⟨fun t h => (by cases h), fun _ t => ?_⟩
        simp [put]
    · cases hc : c.timers l' with
      | some t0 =>
        rw [hc] at hs; cases hs
        exact same _ (logger_counts _ _ _).2 (by simpa using fun e => absurd e h)
      | none =>
        rw [hc] at hs; cases hs
        have e : put c.timers l' n l = c.timers l := if_neg (fun e => h e.symm)
        simp only [e]
        refine ⟨fun t h => h, fun h' t => ?_⟩
        rw [h']
        simp [h]
  | assert b data =>
    simp only [Con.step] at hs
    split at hs
    · cases hs; exact same _ rfl (by simp)
    · cases hs; exact same _ (logger_counts _ _ _).2 (by simp)
  | message lv data => cases hs; exact same _ (logger_counts _ _ _).2 (by simp)
  | clear => cases hs; exact same _ rfl (by simp)
  | trace data => cases hs; exact same _ rfl (by simp)
  | count l' => cases hs; exact same _ (logger_counts _ _ _).2 (by simp)
  | countReset l' =>
    simp only [Con.step] at hs
    split at hs
    · cases hs; exact same _ (logger_counts _ _ _).2 (by simp)
    · cases hs; exact same _ rfl (by simp)
  | group a b d => cases hs; exact same _ rfl (by simp)
  | groupEnd => cases hs; exact same _ rfl (by simp)
  | timeLog l' d n =>
    simp only [Con.step] at hs
    split at hs
    · cases hs; exact same _ rfl (by simp)
    · split at hs
      · cases hs
      · cases hs; exact same _ rfl (by simp)
  | timeEnd l' n =>
    simp only [Con.step] at hs
    split at hs
    · cases hs; exact same _ rfl (by simp)
    · split at hs
      · cases hs
      · cases hs; exact same _ rfl (by simp)

theorem timers_inv (h : List Call) (c : Con) (hr : run start h = some c) (l : Str) :
    (∀ t, c.timers l = some t → Started l h t) ∧ (c.timers l = none → ∀ t, .time l t ∉ h) := by
  induction h using List.reverseRecOn generalizing c with
  | nil => cases hr; exact ⟨fun t h => (by cases h), fun _ t => by simp⟩
  | append_singleton h x ih =>
    obtain ⟨c1, hr1, hs⟩ := run_snoc hr
    obtain ⟨i1, i2⟩ := ih c1 hr1
    obtain ⟨s1, s2⟩ := timers_step hs l
    cases hc : c1.timers l with
    | some t0 =>
      have e := s1 t0 hc
      obtain ⟨b, a, hba, hb⟩ := i1 t0 hc
      rw [e]
      refine ⟨fun t ht => ?_, fun h => (by cases h)⟩
      cases ht
      exact ⟨b, a ++ [x], by rw [hba]; simp, hb⟩
    | none =>
      have e := fun t => (s2 hc t)
      refine ⟨fun t ht => ?_, fun hn t hm => ?_⟩
      · have := (e t).1 ht
        subst this
        exact ⟨h, [], rfl, i2 hc⟩
      · rw [List.mem_append, List.mem_singleton] at hm
        rcases hm with hm | rfl
        · exact i2 hc t hm
        · rw [(e t).2 rfl] at hn; cases hn

theorem started_unique {l : Str} {h : List Call} {t t' : Nat} (h1 : Started l h t) (h2 : Started l h t') : t = t' := by
  obtain ⟨b, a, rfl, hb⟩ := h1
  obtain ⟨b', a', e, hb'⟩ := h2
  induction b generalizing b' with
  | nil =>
    cases b' with
    | nil => simp only [List.nil_append, List.cons.injEq, Call.time.injEq] at e; exact e.1.2
    | cons y b' =>
      simp only [List.nil_append, List.cons_append, List.cons.injEq] at e
      exact absurd (by rw [← e.1]; simp) (hb' t)
  | cons z b ih =>
    cases b' with
    | nil =>
      simp only [List.nil_append, List.cons_append, List.cons.injEq] at e
      exact absurd (by rw [e.1]; simp) (hb t')
    | cons y b' =>
      simp only [List.cons_append, List.cons.injEq] at e
      exact ih (fun t hm => hb t (List.mem_cons_of_mem _ hm)) b' e.2 (fun t hm => hb' t (List.mem_cons_of_mem _ hm))

/-- **C135** A timer that has not been ended: asking for it and ending it show the time since it was started, if the clock
has not been set back; a timer that was never started gives a warning.

Missing: ending a timer does not end it (`C135_restart_violated`), and a clock that is set back is a
panic (`C135_clock_violated`). -/
theorem C135_timers_partial (h : List Call) (c : Con) (hr : run start h = some c) (l : Str) (now : Nat)
    (hend : ∀ t, .timeEnd l t ∉ h) :
    (∀ t, Started l h t → t ≤ now → ∃ c', c.step (.timeEnd l now) = some c' ∧
      c'.printer.calls = c.printer.calls ++ [(.timeEnd, [l ++ ": ".toList ++ (now - t).repr.toList ++ "ms".toList])] ∧
      c'.printer.out = c.printer.out ++ [indent c.printer.groups.length ++
        stripped (l ++ ": ".toList ++ (now - t).repr.toList ++ "ms".toList ++ " ".toList) ++ " - timer ended".toList]) ∧
    (∀ t data, Started l h t → t ≤ now → ∃ c', c.step (.timeLog l data now) = some c' ∧
      c'.printer.calls = c.printer.calls ++ [(.timeLog,
        [l ++ ": ".toList ++ (now - t).repr.toList ++ "ms".toList ++ joined ([] :: data)])]) ∧
    ((∀ t, .time l t ∉ h) → (∃ c', c.step (.timeEnd l now) = some c' ∧
      c'.printer.calls = c.printer.calls ++ [(.warn, ["Timer '".toList ++ l ++ "' does not exist".toList])]) ∧
      ∀ data, ∃ c', c.step (.timeLog l data now) = some c' ∧
      c'.printer.calls = c.printer.calls ++ [(.warn, ["Timer '".toList ++ l ++ "' does not exist".toList])]) := by
  obtain ⟨i1, i2⟩ := timers_inv h c hr l
  refine ⟨?_, ?_, ?_⟩
  · intro t ht hle
    have hc : c.timers l = some t := by
      cases hc : c.timers l with
      | none =>
        obtain ⟨b, a, rfl, _⟩ := ht
        exact absurd (by simp) (i2 hc t)
      | some t' => rw [started_unique ht (i1 t' hc)]
    simp only [Con.step, hc]
    rw [if_neg (by omega)]
    refine ⟨_, rfl, rfl, ?_⟩
    rw [← trim_eq]
    simp [Con.print, Printer.print, indent, num]
  · intro t data ht hle
    have hc : c.timers l = some t := by
      cases hc : c.timers l with
      | none =>
        obtain ⟨b, a, rfl, _⟩ := ht
        exact absurd (by simp) (i2 hc t)
      | some t' => rw [started_unique ht (i1 t' hc)]
    simp only [Con.step, hc]
    rw [if_neg (by omega)]
    refine ⟨_, rfl, ?_⟩
    rw [← trim_flat]
    rfl
  · intro hn
    have hc : c.timers l = none := by
      cases hc : c.timers l with
      | none => rfl
      | some t' =>
        obtain ⟨b, a, rfl, _⟩ := i1 t' hc
        exact absurd (by simp) (hn t')
    simp only [Con.step, hc]
    exact ⟨⟨_, rfl, rfl⟩, fun _ => ⟨_, rfl, rfl⟩⟩

/-- **C135 is violated**: a timer that was ended cannot be started again, and ending it again shows the
time since it was started first. The Console standard removes a timer when it is ended. -/
theorem C135_restart_violated : ∃ c, run start [.time "a".toList 100, .timeEnd "a".toList 150, .time "a".toList 900,
    .timeEnd "a".toList 910] = some c ∧
    c.printer.calls = [(.timeEnd, ["a: 50ms".toList]), (.warn, ["Timer 'a' already started".toList]),
      (.timeEnd, ["a: 810ms".toList])] :=
  ⟨_, rfl, by decide +kernel⟩

/-- **C135 is violated**: if the system clock is set back while a timer runs, the console panics. -/
theorem C135_clock_violated : run start [.time "a".toList 100, .timeLog "a".toList [] 99] = none := by
  show Option.bind _ _ = none
  decide +kernel

/-- **C134 is violated** for `assert`: of the data only the first is shown. -/
theorem C134_assert_violated : ∃ c, run start [.assert false ["x".toList, "y".toList]] = some c ∧
    c.printer.out = ["[assert] Assertion failed: x".toList] :=
  ⟨_, rfl, by decide +kernel⟩

/-- **C134 is violated** for the printer that writes to a stream: what `debug`, `trace` and `count` ask it
to show is never written, for any data and any state of the console. -/
theorem C134_silent_violated (c : Con) (data : List Str) (l : Str) :
    (∃ c', c.step (.message .debug data) = some c' ∧ c'.printer.out = c.printer.out) ∧
    (∃ c', c.step (.trace data) = some c' ∧ c'.printer.out = c.printer.out) ∧
    (∃ c', c.step (.count l) = some c' ∧ c'.printer.out = c.printer.out) := by
  refine ⟨⟨_, rfl, ?_⟩, ⟨_, rfl, ?_⟩, ⟨_, rfl, ?_⟩⟩
  · match data with
    | [] => rfl
    | [a] => rfl
    | a :: b :: r => rfl
  · rfl
  · rfl

/-- **C134 is violated** for `clear`: the Console standard ends all groups, here they stay open. -/
theorem C134_clear_violated : ∃ c, run start [.group false ["g".toList] [], .clear, .message .log ["x".toList]] = some c ∧
    c.printer.out = [" > Expanded group: g".toList, "--- Clear ---".toList, " > [log] x".toList] :=
  ⟨_, rfl, by decide +kernel⟩

/-- a history that meets the hypotheses -/
def demo : List Call :=
  [.count "n".toList, .group false ["g".toList] [], .message .warn ["a".toList, "b ".toList], .count "n".toList,
   .group true [] "u".toList, .message .log ["c".toList], .groupEnd, .time "t".toList 5, .countReset "n".toList,
   .count "n".toList]

example : (∀ x ∈ demo, Plain x) ∧ depth demo 0 = 1 ∧ Since "n".toList demo 1 ∧ Started "t".toList demo 5 ∧
    (∀ t, .timeEnd "t".toList t ∉ demo) ∧ Balanced [.group true [] "u".toList, .message .log ["c".toList], .groupEnd] ∧
    ∃ c, run start demo = some c ∧
      c.printer.out = [" > Expanded group: g".toList, " > [warn] a b".toList, " >  > Collapsed group: console.group.u".toList,
        " >  > [log] c".toList] ∧
      c.printer.calls.getLast? = some (.count, ["n: 1".toList]) := by
  refine ⟨?_, rfl, ?_, ?_, ?_, ?_, _, rfl, by decide +kernel, by decide +kernel⟩
  · intro x hx
    simp only [demo, List.mem_cons, List.not_mem_nil, or_false] at hx
    rcases hx with rfl | rfl | rfl | rfl | rfl | rfl | rfl | rfl | rfl | rfl <;> simp [Plain]
  · exact .inl ⟨demo.take 8, [.count "n".toList], rfl, by decide +kernel, by decide +kernel⟩
  · refine ⟨[.count "n".toList, .group false ["g".toList] [], .message .warn ["a".toList, "b ".toList], .count "n".toList,
      .group true [] "u".toList, .message .log ["c".toList], .groupEnd], _, rfl, ?_⟩
    intro t; simp
  · intro t; simp [demo]
  · exact .group (h := [.message .log ["c".toList]]) (g := []) (.other (by simp) (by simp) .nil) .nil

end Verif.Console
