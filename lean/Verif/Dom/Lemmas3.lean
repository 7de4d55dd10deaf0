import Verif.Dom.Lemmas2

namespace Verif.Dom
open Verif Verif.Map Relation

/-! ## Links agree -/

theorem agree_attach {d d' : Doc} {n p : Nat} {pos : Option Nat} (hg : LinksAgree d) (hn : live d n) (hp : live d p)
    (hfree : ∀ q, live d q → n ∉ children d q) (h : attach d n p pos = some d') : LinksAgree d' := by
  rcases attach_cases h with ⟨rfl, _⟩ | ⟨hne, _, hA⟩
  · exact hg
  · intro q c hq
    have hq' := (hA.live q).1 hq
    have h0 := hg q c hq'
    have hch : (children d' q).count c = (if q = p then (if c = n then 1 else 0) else 0) + (children d q).count c := by
      rw [hA.children]
      by_cases hqp : q = p
      · subst hqp
        rw [if_pos ⟨rfl, hp⟩, (inserted_perm _ _ _).count_eq, List.count_cons, if_pos rfl]
        by_cases hc : c = n
        · subst hc; simp [Nat.add_comm]
        · simp [hc, Ne.symm hc]
      · rw [if_neg (fun h => hqp h.1), if_neg hqp, Nat.zero_add]
    have hpa : parent d' c = if c = n then some p else parent d c := by
      rw [hA.parent]
      by_cases hc : c = n
      · rw [if_pos ⟨hc, hn⟩, if_pos hc]
      · rw [if_neg (fun h => hc h.1), if_neg hc]
    rw [hch, hpa]
    by_cases hc : c = n
    · subst hc
      have hz : (children d q).count c = 0 := List.count_eq_zero.2 (hfree q hq')
      rw [hz]
      by_cases hqp : q = p
      · subst hqp; simp
      · have : ¬ p = q := fun h => hqp h.symm
        simp [hqp, this]
    · simp only [if_neg hc, h0]
      split <;> simp

theorem count_filter_ne (l : List Nat) (n c : Nat) :
    (l.filter fun x => decide (x ≠ n)).count c = if c = n then 0 else l.count c := by
  split
  · next h => subst h; rw [List.count_eq_zero]; simp
  · next h => rw [List.count_filter (by simpa using h)]

theorem agree_detach {d : Doc} (n : Nat) (hg : LinksAgree d) : LinksAgree (detach d n) := by
  have hD := detached_detach d n
  intro q c hq
  have hq' := (hD.live q).1 hq
  have h0 := hg q c hq'
  rw [hD.children, hD.parent]
  by_cases hc : c = n
  · subst hc
    rw [if_pos rfl]
    split
    · rw [count_filter_ne, if_pos rfl]; rfl
    · next hp => rw [h0, if_neg hp]; rfl
  · rw [if_neg hc]
    split
    · rw [count_filter_ne, if_neg hc]; exact h0
    · exact h0

theorem agree_delete {d : Doc} (n : Nat) (hg : LinksAgree d) : LinksAgree (deleteNode d n) := by
  by_cases hl : live d n
  · have hD := deleted_delete hl
    intro q c hq
    obtain ⟨hq', hqn⟩ := (hD.live q).1 hq
    have h0 := hg q c hq'
    rw [hD.children, hD.parent, if_neg hqn]
    by_cases hc : c = n
    · subst hc
      rw [if_pos rfl]
      split
      · rw [count_filter_ne, if_pos rfl]; rfl
      · next hp => rw [h0, if_neg hp]; rfl
    · rw [if_neg hc]
      split
      · rw [count_filter_ne, if_neg hc]; exact h0
      · exact h0
  · rw [delete_dead hl]; exact hg

theorem agree_register {d : Doc} (data : Data) (ha : Arena d) (hi : UpInv d) (hg : LinksAgree d) :
    LinksAgree (register d data).1 := by
  have hC := created_register d data
  intro q c hq
  rw [hC.children, hC.parent]
  by_cases hqn : q = d.nextId
  · subst hqn
    rw [if_pos rfl]
    by_cases hc : c = d.nextId
    · rw [if_pos hc]; rfl
    · rw [if_neg hc, if_neg (fun h => Nat.lt_irrefl _ (hi.lt c _ h))]; rfl
  · rw [if_neg hqn]
    have hq' := ((hC.live q).1 hq).resolve_right hqn
    have h0 := hg q c hq'
    by_cases hc : c = d.nextId
    · subst hc
      have hp : parent d d.nextId = none := parent_of_not_live (fun hl => Nat.lt_irrefl _ (ha.lt hl))
      rw [if_pos rfl, h0, hp]
    · rw [if_neg hc]; exact h0

theorem agree_same {d d' : Doc} (h : SameLinks d d') (hg : LinksAgree d) : LinksAgree d' := by
  intro q c hq
  rw [h.children, h.parent]
  exact hg q c ((h.live q).1 hq)

theorem tidy_target {d : Doc} {o : Op} (ha : Arena d) (hT : Tidy d o) :
    ∀ n p pos, o = .attach n p pos ∨ o = .relocate n p ∨ o = .relocateUnlessThere n p → p < d.nextId := by
  rintro n p pos (rfl | rfl | rfl)
  · exact ha.lt hT.2.1
  · exact ha.lt hT.2
  · exact ha.lt hT.2

theorem agree_step {d d' : Doc} {o : Op} {out : Option Nat} (ha : Arena d) (hi : UpInv d) (hg : LinksAgree d)
    (hT : Tidy d o) (h : step d o = some (d', out)) : LinksAgree d' := by
  cases eff_of_step h with
  | make data hd _ => rw [hd]; exact agree_register data ha hi hg
  | same hs _ => exact agree_same hs hg
  | attach n p pos ho hA =>
    subst ho
    exact agree_attach hg hT.1 hT.2.1 hT.2.2 hA
  | detach n _ hd => rw [hd]; exact agree_detach n hg
  | remove n _ hd => rw [hd]; exact agree_delete n hg
  | move n p ho hA =>
    have hT' : live d n ∧ live d p := by rcases ho with rfl | rfl <;> exact hT
    have hD := detached_detach d n
    have hg' := agree_detach n hg
    refine agree_attach hg' ((hD.live n).2 hT'.1) ((hD.live p).2 hT'.2) ?_ hA
    intro q hq hm
    have h0 := hg' q n hq
    rw [hD.parent, if_pos rfl] at h0
    exact List.count_eq_zero.1 h0 hm

theorem agree_reach {d : Doc} (h : Reach Tidy d) : UpInv d ∧ LinksAgree d := by
  induction h with
  | new =>
    refine ⟨⟨fun c p h => (by rw [parent_new] at h; cases h), fun c p h => (by rw [parent_new] at h; cases h)⟩, ?_⟩
    intro p c _
    rw [children_new, parent_new]; rfl
  | step hr hP hs ih =>
    exact ⟨upInv_step (arena_reach hr) ih.1 (tidy_target (arena_reach hr) hP) hs,
      agree_step (arena_reach hr) ih.1 ih.2 hP hs⟩

theorem edge_parent {d : Doc} (hg : LinksAgree d) {p c : Nat} (h : Edge d p c) : parent d c = some p := by
  have hl := (lt_of_children h).1
  have h0 := hg p c hl
  have hpos : 0 < (children d p).count c := List.count_pos_iff.2 h
  by_cases hp : parent d c = some p
  · exact hp
  · rw [if_neg hp] at h0; omega

theorem children_nodup {d : Doc} (hg : LinksAgree d) (p : Nat) : (children d p).Nodup := by
  by_cases hl : live d p
  · rw [List.nodup_iff_count_le_one]
    intro c
    rw [hg p c hl]
    split <;> omega
  · rw [children_of_not_live hl]; exact List.nodup_nil

/-! ## Walks -/

theorem walks_append {d : Doc} {a b l₁ l₂ : List Nat} (h1 : Walks d a l₁) (h2 : Walks d b l₂) :
    Walks d (a ++ b) (l₁ ++ l₂) := by
  induction a generalizing l₁ with
  | nil => cases h1; exact h2
  | cons x r ih =>
    cases h1 with
    | cons hw hr => rw [List.append_assoc]; exact .cons hw (ih hr)

theorem iterate_walks {d : Doc} : ∀ (f : Nat) {st l : List Nat}, Walks d st l → iterate d f st = l.take f := by
  intro f
  induction f with
  | zero => intro st l _; rfl
  | succ f ih =>
    intro st l h
    cases h with
    | nil => rfl
    | cons hw hr =>
      cases hw with
      | node hc =>
        simp only [iterate, iterNext, List.cons_append, List.take_succ_cons]
        rw [ih (walks_append hc hr)]

theorem walks_unique {d : Doc} {st l l' : List Nat} (h : Walks d st l) (h' : Walks d st l') : l = l' := by
  have h1 := iterate_walks (max l.length l'.length) h
  have h2 := iterate_walks (max l.length l'.length) h'
  rw [List.take_of_length_le (Nat.le_max_left _ _)] at h1
  rw [List.take_of_length_le (Nat.le_max_right _ _)] at h2
  exact h1.symm.trans h2

theorem walk_exists {d : Doc} : ∀ {f p : Nat}, ¬ Path d f p →
    ∃ l, Walk d p l ∧ ∀ x, x ∈ l ↔ ReflTransGen (Edge d) p x := by
  intro f
  induction f with
  | zero => intro p h; exact absurd trivial h
  | succ f ih =>
    intro p h
    have hc : ∀ c ∈ children d p, ∃ l, Walk d c l ∧ ∀ x, x ∈ l ↔ ReflTransGen (Edge d) c x :=
      fun c hc => ih (fun hp => h ⟨c, hc, hp⟩)
    have key : ∀ cs : List Nat, (∀ c ∈ cs, ∃ l, Walk d c l ∧ ∀ x, x ∈ l ↔ ReflTransGen (Edge d) c x) →
        ∃ l, Walks d cs l ∧ ∀ x, x ∈ l ↔ ∃ c ∈ cs, ReflTransGen (Edge d) c x := by
      intro cs
      induction cs with
      | nil => intro _; exact ⟨[], .nil, by simp⟩
      | cons c r ihr =>
        intro hcs
        obtain ⟨l1, hw, hm⟩ := hcs c (by simp)
        obtain ⟨l2, hws, hms⟩ := ihr (fun c' hc' => hcs c' (by simp [hc']))
        refine ⟨l1 ++ l2, .cons hw hws, fun x => ?_⟩
        rw [List.mem_append, hm, hms]
        simp
    obtain ⟨l, hws, hms⟩ := key _ hc
    refine ⟨p :: l, .node hws, fun x => ?_⟩
    rw [List.mem_cons, hms]
    constructor
    · rintro (rfl | ⟨c, hc, hr⟩)
      · exact .refl
      · exact .head hc hr
    · intro hr
      rcases ReflTransGen.cases_head hr with h | ⟨c, hc, hr⟩
      · exact Or.inl h.symm
      · exact Or.inr ⟨c, hc, hr⟩

theorem no_path {d : Doc} (hn : NoCycle (Edge d)) (p : Nat) : ¬ Path d (d.nodes.length + 1) p := by
  intro h
  obtain ⟨l, h1, h2, h3⟩ := path_list hn h
  have := nodup_bound h2 (fun x hx => (h3 x hx).1)
  omega

theorem walk_total {d : Doc} (hn : NoCycle (Edge d)) (p : Nat) :
    ∃ l, Walk d p l ∧ ∀ x, x ∈ l ↔ ReflTransGen (Edge d) p x := walk_exists (no_path hn p)

theorem walk_to_walks {d : Doc} {p : Nat} {l : List Nat} (h : Walk d p l) : Walks d [p] l := by
  have := Walks.cons h .nil
  rwa [List.append_nil] at this

theorem walk_mem {d : Doc} (hn : NoCycle (Edge d)) {p : Nat} {l : List Nat} (h : Walk d p l) (x : Nat) :
    x ∈ l ↔ ReflTransGen (Edge d) p x := by
  obtain ⟨l', hw, hm⟩ := walk_total hn p
  rw [walks_unique (walk_to_walks h) (walk_to_walks hw)]; exact hm x

/-- two nodes above the same node are above one another -/
theorem above_total {d : Doc} (hg : LinksAgree d) {a b x : Nat} (ha : ReflTransGen (Edge d) a x)
    (hb : ReflTransGen (Edge d) b x) : ReflTransGen (Edge d) a b ∨ ReflTransGen (Edge d) b a := by
  induction ha with
  | refl => exact Or.inr hb
  | tail hay hyz ih =>
    rename_i y z
    rcases ReflTransGen.cases_tail hb with h | ⟨c, hbc, hcz⟩
    · subst h; exact Or.inl (hay.tail hyz)
    · have h1 := edge_parent hg hyz
      have h2 := edge_parent hg hcz
      rw [h1] at h2; cases h2
      exact ih hbc

theorem siblings_disjoint {d : Doc} (hn : NoCycle (Edge d)) (hg : LinksAgree d) {p a b x : Nat} (ha : Edge d p a)
    (hb : Edge d p b) (hab : a ≠ b) (hax : ReflTransGen (Edge d) a x) (hbx : ReflTransGen (Edge d) b x) : False := by
  have main : ∀ {a b : Nat}, Edge d p a → Edge d p b → a ≠ b → ReflTransGen (Edge d) a b → False := by
    intro a b ha hb hab h
    rcases ReflTransGen.cases_tail h with h | ⟨c, hac, hcb⟩
    · exact hab h.symm
    · have h1 := edge_parent hg hb
      have h2 := edge_parent hg hcb
      rw [h1] at h2; cases h2
      exact hn p (TransGen.head' ha hac)
  rcases above_total hg hax hbx with h | h
  · exact main ha hb hab h
  · exact main hb ha (Ne.symm hab) h

theorem walk_nodup {d : Doc} (hn : NoCycle (Edge d)) (hg : LinksAgree d) : ∀ {f p : Nat}, ¬ Path d f p →
    ∀ {l : List Nat}, Walk d p l → l.Nodup := by
  intro f
  induction f with
  | zero => intro p h; exact absurd trivial h
  | succ f ih =>
    intro p h l hw
    cases hw with
    | node hws =>
      rename_i l
      have key : ∀ (cs l : List Nat), cs.Nodup → (∀ c ∈ cs, Edge d p c) → Walks d cs l →
          l.Nodup ∧ ∀ x ∈ l, ∃ c ∈ cs, ReflTransGen (Edge d) c x := by
        intro cs
        induction cs with
        | nil => intro l _ _ hw; cases hw; exact ⟨List.nodup_nil, by simp⟩
        | cons c r ihr =>
          intro l hnd he hw
          cases hw with
          | cons hw1 hw2 =>
            rename_i l1 l2
            obtain ⟨hcr, hnr⟩ := List.nodup_cons.1 hnd
            obtain ⟨h2, h3⟩ := ihr l2 hnr (fun c' hc' => he c' (by simp [hc'])) hw2
            have h1 : l1.Nodup := ih (fun hp => h ⟨c, he c (by simp), hp⟩) hw1
            have hm1 := fun x => walk_mem hn hw1 x
            refine ⟨?_, ?_⟩
            · rw [List.nodup_append]
              refine ⟨h1, h2, ?_⟩
              intro a ha b hb hab
              subst hab
              obtain ⟨c', hc', hr'⟩ := h3 a hb
              exact siblings_disjoint hn hg (he c (by simp)) (he c' (by simp [hc']))
                (fun hcc => hcr (hcc ▸ hc')) ((hm1 a).1 ha) hr'
            · intro x hx
              rcases List.mem_append.1 hx with hx | hx
              · exact ⟨c, by simp, (hm1 x).1 hx⟩
              · obtain ⟨c', hc', hr'⟩ := h3 x hx
                exact ⟨c', by simp [hc'], hr'⟩
      obtain ⟨h1, h2⟩ := key _ _ (children_nodup hg p) (fun c hc => hc) hws
      refine List.nodup_cons.2 ⟨fun hm => ?_, h1⟩
      obtain ⟨c, hc, hr⟩ := h2 p hm
      exact hn p (TransGen.head' hc hr)

end Verif.Dom
