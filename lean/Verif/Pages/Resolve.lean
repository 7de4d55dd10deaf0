import Verif.Pages.Spec

/-! # C131: which provider answers for an internal page -/

namespace Verif.Pages

theorem get_put (m : List (Str × Provider)) (k k' : Str) (v : Provider) :
    get (put m k v) k' = if k = k' then some v else get m k' := by
  unfold get put
  by_cases h : k = k'
  · simp [h]
  · rw [if_neg h, List.find?_cons_of_neg (by simpa using h), List.find?_filter]
    congr 2
    funext e
    by_cases he : e.1 = k'
    · simp [he, Ne.symm h]
    · simp [he]

theorem get_del (m : List (Str × Provider)) (k k' : Str) :
    get (del m k) k' = if k = k' then none else get m k' := by
  unfold get del
  rw [List.find?_filter]
  by_cases h : k = k'
  · subst h
    rw [if_pos rfl, Option.map_eq_none_iff, List.find?_eq_none]
    intro e _
    by_cases he : e.1 = k <;> simp [he]
  · rw [if_neg h]
    congr 2
    funext e
    by_cases he : e.1 = k'
    · simp [he, Ne.symm h]
    · simp [he]

theorem get_isSome (m : List (Str × Provider)) (k : Str) : k ∈ m.map (·.1) ↔ ∃ v, get m k = some v := by
  unfold get
  constructor
  · intro h
    obtain ⟨e, he, rfl⟩ := List.mem_map.1 h
    cases hf : m.find? (fun x => decide (x.1 = e.1)) with
    | none => exact absurd (List.find?_eq_none.1 hf e he) (by simp)
    | some x => exact ⟨x.2, rfl⟩
  · rintro ⟨v, hv⟩
    obtain ⟨e, he, rfl⟩ := Option.map_eq_some_iff.1 hv
    have := List.find?_some he
    rw [decide_eq_true_eq] at this
    exact List.mem_map.2 ⟨e, List.mem_of_find?_eq_some he, this⟩

theorem run_append (r : Registry) (a b : List Op) : run r (a ++ b) = run (run r a) b := by
  induction a generalizing r with
  | nil => rfl
  | cons o a ih => cases o <;> exact ih _

theorem run_builtin (r : Registry) (a : List Op) : (run r a).builtin = r.builtin := by
  induction a generalizing r with
  | nil => rfl
  | cons o a ih => cases o <;> exact ih _

theorem run_other (r : Registry) (a : List Op) (name : Str) (h : ∀ o ∈ a, Op.name o ≠ name) :
    get (run r a).overrides name = get r.overrides name := by
  induction a generalizing r with
  | nil => rfl
  | cons o a ih =>
    have h1 := h o (by simp)
    have h2 := fun r => ih r (fun o ho => h o (by simp [ho]))
    cases o with
    | register n p => exact (h2 _).trans ((get_put _ _ _ _).trans (if_neg h1))
    | unregister n => exact (h2 _).trans ((get_del _ _ _).trans (if_neg h1))

theorem run_registered (all : List (Str × Provider)) (ops : List Op) (name : Str) (q : Option Provider)
    (h : Registered name ops q) : get (run (withBuiltins all) ops).overrides name = q := by
  cases h with
  | none h => rw [run_other _ _ _ h]; rfl
  | last h =>
    rw [run_append]
    exact (run_other _ _ _ h).trans ((get_put _ _ _ _).trans (if_pos rfl))
  | removed h =>
    rw [run_append]
    exact (run_other _ _ _ h).trans ((get_del _ _ _).trans (if_pos rfl))

theorem registered_exists (name : Str) (ops : List Op) : ∃ q, Registered name ops q := by
  induction ops with
  | nil => exact ⟨none, .none (by simp)⟩
  | cons o ops ih =>
    obtain ⟨q, hq⟩ := ih
    cases hq with
    | none h =>
      by_cases hn : Op.name o = name
      · cases o with
        | register n p => cases hn; exact ⟨some p, .last (before := []) h⟩
        | unregister n => cases hn; exact ⟨none, .removed (before := []) h⟩
      · refine ⟨none, .none ?_⟩
        intro o' ho
        rcases List.mem_cons.1 ho with rfl | ho
        · exact hn
        · exact h o' ho
    | @last before after p h => exact ⟨some p, .last (before := o :: before) h⟩
    | @removed before after h => exact ⟨none, .removed (before := o :: before) h⟩

theorem builtin_get (all : List (Str × Provider)) (hd : (all.map (·.1)).Nodup) (name : Str) :
    (∀ b, (name, b) ∈ all → get (withBuiltins all).builtin name = some b) ∧
    ((∀ b, (name, b) ∉ all) → get (withBuiltins all).builtin name = none) := by
  have key : ∀ (l m : List (Str × Provider)), (l.map (·.1)).Nodup →
      (∀ b, (name, b) ∈ l → get (l.foldl (fun m e => put m e.1 e.2) m) name = some b) ∧
      ((∀ b, (name, b) ∉ l) → get (l.foldl (fun m e => put m e.1 e.2) m) name = get m name) := by
    intro l
    induction l with
    | nil => intro m _; exact ⟨fun b h => absurd h (by simp), fun _ => rfl⟩
    | cons e l ih =>
      intro m hd
      rw [List.map_cons, List.nodup_cons] at hd
      obtain ⟨i1, i2⟩ := ih (put m e.1 e.2) hd.2
      rw [List.foldl_cons]
      refine ⟨?_, ?_⟩
      · intro b hb
        rcases List.mem_cons.1 hb with rfl | hb
        · rw [i2 (fun c hc => hd.1 (List.mem_map.2 ⟨_, hc, rfl⟩)), get_put, if_pos rfl]
        · exact i1 b hb
      · intro hb
        rw [i2 (fun c hc => hb c (List.mem_cons_of_mem _ hc)), get_put, if_neg]
        rintro rfl
        exact hb e.2 (by simp)
  exact key all [] hd

/-- **C131** After any history of registrations, the page at an address is the one of the provider last
registered for its name, if it answers; else the engine's own page of that name, if there is one and it
answers; else the page for unknown addresses. Taking a provider away brings the engine's page back. -/
theorem C131_resolve (all : List (Str × Provider)) (hd : (all.map (·.1)).Nodup) (ops : List Op)
    (notFound : Url → List Str → Str) (u : Url) (q : Option Provider) (hq : Registered (pageName u) ops q) :
    let r := run (withBuiltins all) ops
    (∀ p page, q = some p → p u = some page → r.resolve notFound u = page) ∧
    ((∀ p, q = some p → p u = none) →
      (∀ b page, (pageName u, b) ∈ all → b u = some page → r.resolve notFound u = page) ∧
      ((∀ b, (pageName u, b) ∈ all → b u = none) → r.resolve notFound u = notFound u r.names)) := by
  intro r
  have h1 : get r.overrides (pageName u) = q := run_registered all ops _ q hq
  have h2 : r.builtin = (withBuiltins all).builtin := run_builtin _ ops
  obtain ⟨b1, b2⟩ := builtin_get all hd (pageName u)
  unfold Registry.resolve
  simp only [h1, h2]
  refine ⟨?_, ?_⟩
  · rintro p page rfl hp
    simp [hp]
  · intro hn
    have hb : (q.bind fun p => p u) = none := by
      cases q with
      | none => rfl
      | some p => exact hn p rfl
    rw [hb]
    refine ⟨?_, ?_⟩
    · intro b page hm hp
      simp [b1 b hm, hp]
    · intro hm
      by_cases hx : ∃ b, (pageName u, b) ∈ all
      · obtain ⟨b, hb'⟩ := hx
        simp [b1 b hb', hm b hb']
      · rw [b2 (fun b hb' => hx ⟨b, hb'⟩)]
        rfl

/-- **C131** The list of pages has each name once: the names of the engine's pages and those registered
and not taken away. -/
theorem C131_names (all : List (Str × Provider)) (hd : (all.map (·.1)).Nodup) (ops : List Op) :
    let names := (run (withBuiltins all) ops).names
    names.Nodup ∧ ∀ n, n ∈ names ↔ n ∈ all.map (·.1) ∨ ∃ p, Registered n ops (some p) := by
  intro names
  have key : ∀ l : List Str,
      (l.foldr (fun n l => if l.contains n then l else n :: l) []).Nodup ∧
      ∀ n, n ∈ l.foldr (fun n l => if l.contains n then l else n :: l) [] ↔ n ∈ l := by
    intro l
    induction l with
    | nil => simp
    | cons x l ih =>
      obtain ⟨i1, i2⟩ := ih
      simp only [List.foldr_cons]
      split
      · rename_i h
        rw [List.contains_iff_mem] at h
        refine ⟨i1, fun n => ?_⟩
        rw [i2, List.mem_cons]
        refine ⟨.inr, ?_⟩
        rintro (rfl | h')
        · exact (i2 _).1 h
        · exact h'
      · rename_i h
        rw [List.contains_iff_mem] at h
        refine ⟨List.nodup_cons.2 ⟨h, i1⟩, fun n => ?_⟩
        rw [List.mem_cons, List.mem_cons, i2]
  obtain ⟨k1, k2⟩ := key ((run (withBuiltins all) ops).overrides.map (·.1) ++ (run (withBuiltins all) ops).builtin.map (·.1))
  refine ⟨k1, fun n => ?_⟩
  refine (k2 n).trans ?_
  rw [List.mem_append, get_isSome, get_isSome, run_builtin]
  obtain ⟨q, hq⟩ := registered_exists n ops
  have hg := run_registered all ops n q hq
  obtain ⟨b1, b2⟩ := builtin_get all hd n
  have hB : (∃ v, get (withBuiltins all).builtin n = some v) ↔ n ∈ all.map (·.1) := by
    constructor
    · rintro ⟨v, hv⟩
      refine Classical.byContradiction fun hn => ?_
      rw [b2 (fun b hb => hn (List.mem_map.2 ⟨_, hb, rfl⟩))] at hv
      cases hv
    · intro h
      obtain ⟨⟨x, b⟩, hb, rfl⟩ := List.mem_map.1 h
      exact ⟨b, b1 b hb⟩
  rw [hB, hg]
  refine ⟨?_, ?_⟩
  · rintro (⟨v, rfl⟩ | h)
    · exact .inr ⟨v, hq⟩
    · exact .inl h
  · rintro (h | ⟨p, hp⟩)
    · exact .inr h
    · exact .inl ⟨p, by rw [← hg]; exact run_registered all ops n _ hp⟩

theorem drop_slash (k : Nat) (w : Str) (h : w.head? ≠ some '/') :
    (List.replicate k '/' ++ w).dropWhile (· == '/') = w := by
  induction k with
  | zero =>
    cases w with
    | nil => rfl
    | cons c w =>
      have : (c == '/') = false := by simpa using h
      simp [this]
  | succ k ih => rw [List.replicate_succ, List.cons_append, List.dropWhile_cons_of_pos (by rfl), ih]

/-- **C131** The name of a page is the host of its address, or the path if there is no host, without the
slashes around it. -/
theorem C131_page_name (host : Option Str) (path name : Str) (k m : Nat)
    (hu : (host = none ∧ path = List.replicate k '/' ++ name ++ List.replicate m '/') ∨
      host = some (List.replicate k '/' ++ name ++ List.replicate m '/'))
    (h1 : name.head? ≠ some '/') (h2 : name.getLast? ≠ some '/') (h0 : name ≠ []) :
    pageName ⟨host, path⟩ = name := by
  have key : trimSlash (List.replicate k '/' ++ name ++ List.replicate m '/') = name := by
    unfold trimSlash
    rw [List.append_assoc, drop_slash]
    · rw [List.reverse_append, List.reverse_replicate, drop_slash, List.reverse_reverse]
      rwa [List.head?_reverse]
    · cases name with
      | nil => exact absurd rfl h0
      | cons c w => simpa using h1
  rcases hu with ⟨rfl, rfl⟩ | rfl <;> exact key

example : pageName ⟨none, lit "//a/b/"⟩ = lit "a/b" ∧ pageName ⟨some (lit "help"), lit "/x"⟩ = lit "help" := by decide +kernel

/-- the hypotheses of C131 with two of the engine's pages, one of them replaced and the other replaced
and restored -/
example :
    let all : List (Str × Provider) := [(lit "version", fun _ => some (lit "v")), (lit "history", fun _ => some (lit "h"))]
    let ops : List Op := [.register (lit "version") (fun _ => some (lit "mine")), .register (lit "history") (fun _ => none),
      .register (lit "extra") (fun _ => some (lit "e")), .unregister (lit "extra")]
    (all.map (·.1)).Nodup ∧
    (run (withBuiltins all) ops).resolve (fun _ _ => lit "?") ⟨some (lit "version"), []⟩ = lit "mine" ∧
    (run (withBuiltins all) ops).resolve (fun _ _ => lit "?") ⟨none, lit "/history/"⟩ = lit "h" ∧
    (run (withBuiltins all) ops).resolve (fun _ _ => lit "?") ⟨some (lit "extra"), []⟩ = lit "?" ∧
    Registered (lit "extra") ops none := by
  refine ⟨by decide +kernel, by decide +kernel, by decide +kernel, by decide +kernel, ?_⟩
  exact .removed (before := [.register (lit "version") (fun _ => some (lit "mine")), .register (lit "history") (fun _ => none),
      .register (lit "extra") (fun _ => some (lit "e"))]) (after := []) (by simp)

end Verif.Pages
