import Verif.Media.Lemmas

/-! # The invariant for one source -/

namespace Verif.Media

/-- A thread that has the mark of being in flight. -/
def owner (k : Key) : Pc → Bool
  | .own k' | .noSpawn k' | .load k' | .fetch k' | .failed k' | .alloc k' _ | .entry k' _ _
  | .store k' _ | .drop k' => k' = k
  | _ => false

/-- A thread that has fetched the source and not yet cached it. -/
def late (k : Key) : Pc → Bool
  | .failed k' | .alloc k' _ | .entry k' _ _ | .store k' _ => k' = k
  | _ => false

/-- What is known of a thread. -/
def Good (k : Key) (s : St) : Pc → Prop
  | .fetch k' => k' = k → fetches k s.log = 0
  | .failed k' => k' = k → .fetched k none ∈ s.log
  | .alloc k' p => k' = k → .fetched k (some p) ∈ s.log
  | .entry k' id p => k' = k → .fetched k (some p) ∈ s.log
  | .store k' id => k' = k → 100 ≤ id ∧ ∃ p, s.entries id = some (k, p) ∧ .fetched k (some p) ∈ s.log
  | .noSpawn k' => k' = k → .noThread k ∈ s.log
  | .drop k' | .signal k' => k' = k → s.cache k ≠ none
  | .other k' _ | .otherAlloc k' _ | .otherEntry k' _ _ | .otherStore k' _ => k' ≠ k
  | _ => True

structure Inv (k : Key) (s : St) : Prop where
  own : s.threads.countP (owner k) = (s.pending k).toNat
  good : ∀ pc ∈ s.threads, Good k s pc
  once : fetches k s.log ≤ 1
  late : fetches k s.log ≠ 0 → s.cache k ≠ none ∨ ∃ pc ∈ s.threads, late k pc = true
  cached : ∀ id, s.cache k = some id → (id = placeholder ∧ .fetched k none ∈ s.log) ∨
    (100 ≤ id ∧ ∃ p, s.entries id = some (k, p) ∧ .fetched k (some p) ∈ s.log)
  stored : s.cache k ≠ none → .stored k ∈ s.log
  said : ∀ id, .answered k (some id) ∈ s.log → s.cache k = some id

theorem fetches_append (k : Key) (l : List Event) (e : Event) :
    fetches k (l ++ [e]) = fetches k l + fetches k [e] := by
  unfold fetches; rw [List.countP_append]

/-- The state grows: nothing that was known is lost. -/
structure Grows (k : Key) (s s' : St) : Prop where
  fetched : fetches k s'.log = fetches k s.log
  log : ∀ e ∈ s.log, e ∈ s'.log
  entries : ∀ id v, s.entries id = some v → s'.entries id = some v
  cache : ∀ id, s.cache k = some id → s'.cache k = some id

theorem good_grows {k : Key} {s s' : St} (h : Grows k s s') {pc : Pc} (hg : Good k s pc) : Good k s' pc := by
  cases pc <;> simp only [Good] at hg ⊢
  case fetch => intro e; rw [h.fetched]; exact hg e
  case failed => intro e; exact h.log _ (hg e)
  case noSpawn => intro e; exact h.log _ (hg e)
  case alloc => intro e; exact h.log _ (hg e)
  case entry => intro e; exact h.log _ (hg e)
  case store =>
    intro e
    obtain ⟨h1, p, h2, h3⟩ := hg e
    exact ⟨h1, p, h.entries _ _ h2, h.log _ h3⟩
  case drop =>
    intro e hn
    cases hc : s.cache k with
    | none => exact hg e hc
    | some id => rw [h.cache id hc] at hn; cases hn
  case signal =>
    intro e hn
    cases hc : s.cache k with
    | none => exact hg e hc
    | some id => rw [h.cache id hc] at hn; cases hn
  all_goals exact hg

/-- A step that neither fetches nor caches the source: the invariant is kept if the mark is. -/
theorem inv_quiet {k : Key} {s s' : St} (h : Inv k s) (g : Grows k s s') (hc : s'.cache k = s.cache k)
    (hown : s'.threads.countP (owner k) = (s'.pending k).toNat)
    (hnew : ∀ pc ∈ s'.threads, pc ∈ s.threads ∨ Good k s' pc)
    (hlate : ∀ pc ∈ s.threads, late k pc = true → s.cache k ≠ none ∨ ∃ pc' ∈ s'.threads, late k pc' = true)
    (hlog : ∀ id, .answered k (some id) ∈ s'.log → .answered k (some id) ∈ s.log ∨ s.cache k = some id) : Inv k s' := by
  refine ⟨hown, ?_, ?_, ?_, ?_, ?_, ?_⟩
  · intro pc hpc
    rcases hnew pc hpc with h1 | h1
    · exact good_grows g (h.good pc h1)
    · exact h1
  · rw [g.fetched]; exact h.once
  · rw [g.fetched, hc]
    intro hf
    rcases h.late hf with h1 | ⟨pc, hpc, hl⟩
    · exact .inl h1
    · exact hlate pc hpc hl
  · intro id hid
    rw [hc] at hid
    rcases h.cached id hid with ⟨h1, h2⟩ | ⟨h1, p, h2, h3⟩
    · exact .inl ⟨h1, g.log _ h2⟩
    · exact .inr ⟨h1, p, g.entries _ _ h2, g.log _ h3⟩
  · rw [hc]; intro hn; exact g.log _ (h.stored hn)
  · intro id hid
    rw [hc]
    rcases hlog id hid with h1 | h1
    · exact h.said id h1
    · exact h1

theorem grows_of {k : Key} {s s' : St} (e : Option Event) (hl : s'.log = s.log ++ e.toList)
    (hf : ∀ x ∈ e, fetches k [x] = 0) (he : s'.entries = s.entries) (hc : s'.cache k = s.cache k) : Grows k s s' := by
  refine ⟨?_, ?_, fun id v h => by rw [he]; exact h, fun id h => by rw [hc]; exact h⟩
  · rw [hl]
    cases e with
    | none => simp
    | some x => rw [Option.toList_some, fetches_append, hf x rfl]; rfl
  · rw [hl]; intro x hx; simp [hx]

theorem late_owner {k : Key} {pc : Pc} (h : late k pc = true) : owner k pc = true := by
  cases pc <;> first | exact h | cases h

theorem in_flight {k : Key} {s : St} (h : Inv k s) {pc : Pc} (hm : pc ∈ s.threads) (ho : owner k pc = true) :
    s.pending k = true := by
  have h1 : 0 < s.threads.countP (owner k) := List.countP_pos_iff.2 ⟨pc, hm, ho⟩
  rw [h.own] at h1
  cases hp : s.pending k with
  | true => rfl
  | false => rw [hp] at h1; cases h1

theorem alone {k : Key} {s : St} (h : Inv k s) {x y : Pc} (hx : x ∈ s.threads) (hy : y ∈ s.threads)
    (ox : owner k x = true) (oy : owner k y = true) : x = y := by
  refine only ?_ hx hy ox oy
  rw [h.own]; cases s.pending k <;> decide

/-- A thread goes on without fetching or caching the source. -/
theorem inv_go {k : Key} {s s' : St} (h : Inv k s) {i : Nat} {pc : Pc} (hi : s.threads[i]? = some pc) (pc' : Pc)
    (ht : s'.threads = s.threads.set i pc') (g : Grows k s s') (hc : s'.cache k = s.cache k)
    (hp : (s'.pending k).toNat + (owner k pc).toNat = (s.pending k).toNat + (owner k pc').toNat)
    (hg : Good k s' pc') (hlate : late k pc = true → late k pc' = true ∨ s.cache k ≠ none)
    (hlog : ∀ id, .answered k (some id) ∈ s'.log → .answered k (some id) ∈ s.log ∨ s.cache k = some id) : Inv k s' := by
  refine inv_quiet h g hc ?_ ?_ ?_ hlog
  · have := count_set (owner k) s.threads i pc pc' hi
    rw [ht]
    have h1 := h.own
    omega
  · intro x hx
    rw [ht] at hx
    rcases mem_old hx with h1 | rfl
    · exact .inl h1
    · exact .inr hg
  · intro x hx hl
    by_cases e : x = pc
    · subst e
      rcases hlate hl with h1 | h1
      · exact .inr ⟨pc', by rw [ht]; exact mem_new hi, h1⟩
      · exact .inl h1
    · exact .inr ⟨x, by rw [ht]; exact mem_keep hi hx e, hl⟩

theorem log_none {k : Key} {s s' : St} (hl : s'.log = s.log) (id : Nat) :
    .answered k (some id) ∈ s'.log → .answered k (some id) ∈ s.log ∨ s.cache k = some id :=
  fun h => .inl (by rw [← hl]; exact h)

theorem log_one {k : Key} {s s' : St} {e : Event} (hl : s'.log = s.log ++ [e])
    (he : ∀ id, e = .answered k (some id) → s.cache k = some id) (id : Nat) :
    .answered k (some id) ∈ s'.log → .answered k (some id) ∈ s.log ∨ s.cache k = some id := by
  intro h
  rw [hl, List.mem_append, List.mem_singleton] at h
  rcases h with h | h
  · exact .inl h
  · exact .inr (he id h.symm)

theorem orInsert_ne (c : Key → Option Nat) {k k' : Key} (h : k' ≠ k) (id : Nat) : orInsert c k' id k = c k :=
  if_neg (fun e => h e.symm)

/-- The step in which the source is fetched. -/
theorem inv_fetch {k : Key} {s : St} (h : Inv k s) {i : Nat} (hi : s.threads[i]? = some (.fetch k)) (r : Option Nat)
    (pc' : Pc) (hl : late k pc' = true)
    (hg : ∀ s' : St, .fetched k r ∈ s'.log → Good k s' pc') :
    Inv k ((s.go i pc').say (.fetched k r)) := by
  have hm : Pc.fetch k ∈ s.threads := List.mem_of_getElem? hi
  have h0 : fetches k s.log = 0 := h.good _ hm rfl
  have h1 : fetches k (s.log ++ [.fetched k r]) = 1 := by
    rw [fetches_append, h0]; simp [fetches]
  have hin : ∀ e ∈ s.log, e ∈ s.log ++ [Event.fetched k r] := fun e he => by simp [he]
  refine ⟨?_, ?_, ?_, ?_, ?_, ?_, ?_⟩
  · have := count_set (owner k) s.threads i _ pc' hi
    have h2 := h.own
    have h3 := late_owner hl
    rw [h3] at this
    simp only [owner, decide_true] at this
    show (s.threads.set i pc').countP (owner k) = (s.pending k).toNat
    omega
  · intro x hx
    have hx : x ∈ s.threads.set i pc' := hx
    have hcount : (s.threads.set i pc').countP (owner k) ≤ 1 := by
      have := count_set (owner k) s.threads i _ pc' hi
      have h2 := h.own
      have h4 : (s.pending k).toNat ≤ 1 := Bool.toNat_le _
      rw [late_owner hl] at this
      simp only [owner, decide_true] at this
      omega
    rcases mem_old hx with hx' | rfl
    · have hgx := h.good x hx'
      cases x <;> simp only [Good] at hgx ⊢
      case fetch k' =>
        rintro rfl
        have := only hcount hx (mem_new hi) (by simp [owner]) (late_owner hl)
        subst this
        cases hl
      case failed => intro e; exact hin _ (hgx e)
      case noSpawn => intro e; exact hin _ (hgx e)
      case alloc => intro e; exact hin _ (hgx e)
      case entry => intro e; exact hin _ (hgx e)
      case store =>
        intro e
        obtain ⟨a, p, b, c⟩ := hgx e
        exact ⟨a, p, b, hin _ c⟩
      all_goals exact hgx
    · exact hg _ (by show _ ∈ s.log ++ _; simp)
  · show fetches k (s.log ++ _) ≤ 1
    omega
  · intro _
    exact .inr ⟨pc', mem_new hi, hl⟩
  · intro id hid
    rcases h.cached id hid with ⟨a, b⟩ | ⟨a, p, b, c⟩
    · exact .inl ⟨a, hin _ b⟩
    · exact .inr ⟨a, p, b, hin _ c⟩
  · intro hn; exact hin _ (h.stored hn)
  · intro id hid
    have hid : .answered k (some id) ∈ s.log ++ [Event.fetched k r] := hid
    rw [List.mem_append, List.mem_singleton] at hid
    rcases hid with hid | hid
    · exact h.said id hid
    · cases hid

/-- The step in which the source is cached. -/
theorem inv_store {k : Key} {s : St} (h : Inv k s) {i : Nat} {pc : Pc} (hi : s.threads[i]? = some pc)
    (ho : owner k pc = true) (id : Nat)
    (hid : (id = placeholder ∧ .fetched k none ∈ s.log) ∨
      (100 ≤ id ∧ ∃ p, s.entries id = some (k, p) ∧ .fetched k (some p) ∈ s.log)) :
    Inv k { (s.go i (.drop k)).say (.stored k) with cache := orInsert s.cache k id } := by
  have hin : ∀ e ∈ s.log, e ∈ s.log ++ [Event.stored k] := fun e he => by simp [he]
  have hf : fetches k (s.log ++ [.stored k]) = fetches k s.log := by rw [fetches_append]; rfl
  have hk : orInsert s.cache k id k = some ((s.cache k).getD id) := if_pos rfl
  have g : Grows k s { (s.go i (.drop k)).say (.stored k) with cache := orInsert s.cache k id } := by
    refine ⟨hf, hin, fun _ _ h => h, fun j hj => ?_⟩
    show orInsert s.cache k id k = _
    rw [hk, hj]; rfl
  refine ⟨?_, ?_, ?_, ?_, ?_, ?_, ?_⟩
  · have := count_set (owner k) s.threads i _ (.drop k) hi
    have h2 := h.own
    rw [ho] at this
    simp only [owner, decide_true] at this
    show (s.threads.set i (.drop k)).countP (owner k) = (s.pending k).toNat
    omega
  · intro x hx
    rcases mem_old hx with hx' | rfl
    · exact good_grows g (h.good x hx')
    · intro _ hn
      have hn : orInsert s.cache k id k = none := hn
      rw [hk] at hn; cases hn
  · show fetches k (s.log ++ _) ≤ 1
    rw [hf]; exact h.once
  · intro _
    left
    show orInsert s.cache k id k ≠ none
    rw [hk]; simp
  · intro j hj
    have hj : orInsert s.cache k id k = some j := hj
    rw [hk] at hj
    have hcase : (j = placeholder ∧ .fetched k none ∈ s.log) ∨
        (100 ≤ j ∧ ∃ p, s.entries j = some (k, p) ∧ .fetched k (some p) ∈ s.log) := by
      cases hc : s.cache k with
      | none => rw [hc] at hj; cases hj; exact hid
      | some j' => rw [hc] at hj; cases hj; exact h.cached _ hc
    rcases hcase with ⟨a, b⟩ | ⟨a, p, b, c⟩
    · exact .inl ⟨a, hin _ b⟩
    · exact .inr ⟨a, p, b, hin _ c⟩
  · intro _; show _ ∈ s.log ++ _; simp
  · intro j hj
    have hj : .answered k (some j) ∈ s.log ++ [Event.stored k] := hj
    rw [List.mem_append, List.mem_singleton] at hj
    rcases hj with hj | hj
    · exact g.cache j (h.said j hj)
    · cases hj

theorem put_ne {α β : Type} [DecidableEq α] (f : α → β) {a x : α} (h : a ≠ x) (b : β) : put f a b x = f x :=
  if_neg (fun e => h e.symm)

theorem put_eq {α β : Type} [DecidableEq α] (f : α → β) (a : α) (b : β) : put f a b a = b := if_pos rfl

theorem inv_move {k : Key} {s : St} (h : Inv k s) (hids : Ids s) (i : Nat) (r : Option Nat) (ok : Bool) {pc : Pc}
    (hi : s.threads[i]? = some pc) : Inv k (s.move i r ok pc) := by
  have hm : pc ∈ s.threads := List.mem_of_getElem? hi
  have hgood := h.good pc hm
  -- a picture is entered under an id that nothing else has
  have fresh : ∀ id v, holds id pc = true → ∀ j w, s.entries j = some w → put s.entries id (some v) j = some w := by
    intro id v hh j w hw
    have h1 := hids.one id
    have h2 : 0 < s.threads.countP (holds id) := List.countP_pos_iff.2 ⟨pc, hm, hh⟩
    have hne : id ≠ j := by
      rintro rfl
      rw [hw] at h1
      simp only [reduceCtorEq, if_false] at h1
      omega
    rw [put_ne _ hne]; exact hw
  cases pc with
  | req k' =>
    simp only [St.move]
    cases hc : s.cache k' with
    | some id =>
      refine inv_go h hi .done rfl (grows_of (some _) rfl (by simp [fetches]) rfl rfl) rfl rfl trivial
        (fun e => by cases e) (log_one rfl ?_)
      intro j hj
      cases hj; exact hc
    | none =>
      exact inv_go h hi (.miss k') rfl (grows_of (some _) rfl (by simp [fetches]) rfl rfl) rfl rfl trivial
        (fun e => by cases e) (log_one rfl (by simp))
  | miss k' =>
    simp only [St.move]
    cases hc : s.pending k' with
    | true =>
      exact inv_go h hi .done rfl (grows_of (some _) rfl (by simp [fetches]) rfl rfl) rfl rfl trivial
        (fun e => by cases e) (log_one rfl (by simp))
    | false =>
      refine inv_go h hi (.own k') rfl (grows_of none (by simp [St.go]) (by simp) rfl rfl) rfl ?_ trivial
        (fun e => by cases e) (log_none rfl)
      show (put s.pending k' true k).toNat + _ = _
      by_cases e : k' = k
      · subst e; rw [put_eq, hc]; simp [owner]
      · rw [put_ne _ e]; simp [owner, e]
  | own k' =>
    simp only [St.move]
    cases ok with
    | false =>
      exact inv_go h hi (.noSpawn k') rfl (grows_of (some (.noThread k')) rfl (by simp [fetches]) rfl rfl) rfl rfl
        (fun e => by subst e; show _ ∈ s.log ++ _; simp)
        (fun e => by cases e) (log_one rfl (by simp))
    | true =>
      refine inv_quiet h (grows_of (some (.answered k' none)) rfl (by simp [fetches]) rfl rfl) rfl ?_ ?_ ?_ (log_one rfl (by simp))
      · have := count_set (owner k) s.threads i _ .done hi
        have h2 := h.own
        show (s.threads.set i Pc.done ++ [Pc.load k']).countP (owner k) = (s.pending k).toNat
        rw [List.countP_append]
        by_cases e : k' = k
        · simp only [owner, e, decide_true, List.countP_singleton, if_true] at this ⊢
          simp at this; omega
        · simp only [owner, e, decide_false, List.countP_singleton] at this ⊢
          simp at this ⊢; omega
      · intro x hx
        have hx : x ∈ s.threads.set i .done ++ [.load k'] := hx
        rw [List.mem_append, List.mem_singleton] at hx
        rcases hx with hx | rfl
        · rcases mem_old hx with h1 | rfl
          · exact .inl h1
          · exact .inr trivial
        · exact .inr trivial
      · intro x hx hl
        refine .inr ⟨x, ?_, hl⟩
        refine List.mem_append_left _ (mem_keep hi hx ?_)
        rintro rfl; cases hl
  | noSpawn k' =>
    refine inv_go h hi .done rfl (grows_of (some _) rfl (by simp [fetches]) rfl rfl) rfl ?_ trivial
        (fun e => by cases e) (log_one rfl (by simp))
    show (put s.pending k' false k).toNat + _ = _
    by_cases e : k' = k
    · subst e; rw [put_eq, in_flight h hm (by simp [owner])]; simp [owner]
    · rw [put_ne _ e]; simp [owner, e]
  | load k' =>
    simp only [St.move]
    cases hc : s.cache k' with
    | some id =>
      refine inv_go h hi (.drop k') rfl (grows_of none (by simp [St.go]) (by simp) rfl rfl) rfl rfl ?_
        (fun e => by cases e) (log_none rfl)
      rintro rfl hn
      have hn : s.cache k' = none := hn
      rw [hc] at hn; cases hn
    | none =>
      refine inv_go h hi (.fetch k') rfl (grows_of none (by simp [St.go]) (by simp) rfl rfl) rfl rfl ?_
        (fun e => by cases e) (log_none rfl)
      rintro rfl
      show fetches k' s.log = 0
      refine Classical.byContradiction fun hf => ?_
      rcases h.late hf with h1 | ⟨x, hx, hl⟩
      · exact h1 hc
      · have := alone h hx hm (late_owner hl) (by simp [owner])
        subst this; cases hl
  | fetch k' =>
    simp only [St.move]
    by_cases e : k' = k
    · subst e
      cases r with
      | none => exact inv_fetch h hi none _ (by simp [late]) (fun s' hs _ => hs)
      | some p => exact inv_fetch h hi (some p) _ (by simp [late]) (fun s' hs _ => hs)
    · cases r with
      | none =>
        exact inv_go h hi (.failed k') rfl (grows_of (some (.fetched k' none)) rfl (by simp [fetches, e]) rfl rfl) rfl rfl
          (fun e' => absurd e' e) (fun e' => by cases e') (log_one rfl (by simp))
      | some p =>
        exact inv_go h hi (.alloc k' p) rfl (grows_of (some (.fetched k' (some p))) rfl (by simp [fetches, e]) rfl rfl) rfl rfl
          (fun e' => absurd e' e) (fun e' => by cases e') (log_one rfl (by simp))
  | failed k' =>
    by_cases e : k' = k
    · subst e
      exact inv_store h hi (by simp [owner]) placeholder (.inl ⟨rfl, hgood rfl⟩)
    · exact inv_go h hi (.drop k') rfl (grows_of (some (.stored k')) rfl (by simp [fetches]) rfl (orInsert_ne _ e _))
        (orInsert_ne _ e _) rfl (fun e' => absurd e' e) (fun e' => by simp [late, e] at e') (log_one rfl (by simp))
  | alloc k' p =>
    exact inv_go h hi (.entry k' s.next p) rfl (grows_of none (by simp [St.go, St.move]) (by simp) rfl rfl) rfl rfl
      hgood (fun e => .inl e) (log_none rfl)
  | entry k' id p =>
    have g : Grows k s (s.move i r ok (.entry k' id p)) :=
      ⟨rfl, fun _ h => h, fun j w hw => fresh id (k', p) (by simp [holds]) j w hw, fun _ h => h⟩
    refine inv_go h hi (.store k' id) rfl g rfl rfl ?_ (fun e => .inl e) (log_none rfl)
    rintro rfl
    refine ⟨?_, p, put_eq _ _ _, hgood rfl⟩
    refine Classical.byContradiction fun hlt => ?_
    have h2 : 0 < s.threads.countP (holds id) := List.countP_pos_iff.2 ⟨_, hm, by simp [holds]⟩
    rw [hids.min id (by omega)] at h2
    cases h2
  | store k' id =>
    by_cases e : k' = k
    · subst e
      exact inv_store h hi (by simp [owner]) id (.inr (hgood rfl))
    · exact inv_go h hi (.drop k') rfl (grows_of (some (.stored k')) rfl (by simp [fetches]) rfl (orInsert_ne _ e _))
        (orInsert_ne _ e _) rfl (fun e' => absurd e' e) (fun e' => by simp [late, e] at e') (log_one rfl (by simp))
  | drop k' =>
    refine inv_go h hi (.signal k') rfl (grows_of none (by simp [St.go, St.move]) (by simp) rfl rfl) rfl ?_ hgood
      (fun e => by cases e) (log_none rfl)
    show (put s.pending k' false k).toNat + _ = _
    by_cases e : k' = k
    · subst e; rw [put_eq, in_flight h hm (by simp [owner])]; simp [owner]
    · rw [put_ne _ e]; simp [owner, e]
  | signal k' =>
    exact inv_go h hi .done rfl (grows_of none (by simp [St.go, St.move]) (by simp) rfl rfl) rfl rfl trivial
      (fun e => by cases e) (log_none rfl)
  | other k' p =>
    simp only [St.move]
    cases hc : s.cache k' with
    | some id =>
      exact inv_go h hi .done rfl (grows_of (some _) rfl (by simp [fetches]) rfl rfl) rfl rfl trivial
        (fun e => by cases e) (log_one rfl (by simp))
    | none =>
      exact inv_go h hi (.otherAlloc k' p) rfl (grows_of none (by simp [St.go]) (by simp) rfl rfl) rfl rfl hgood
        (fun e => by cases e) (log_none rfl)
  | otherAlloc k' p =>
    exact inv_go h hi (.otherEntry k' s.next p) rfl (grows_of none (by simp [St.go, St.move]) (by simp) rfl rfl) rfl rfl
      hgood (fun e => by cases e) (log_none rfl)
  | otherEntry k' id p =>
    have g : Grows k s (s.move i r ok (.otherEntry k' id p)) :=
      ⟨rfl, fun _ h => h, fun j w hw => fresh id p (by simp [holds]) j w hw, fun _ h => h⟩
    exact inv_go h hi (.otherStore k' id) rfl g rfl rfl hgood (fun e => by cases e) (log_none rfl)
  | otherStore k' id =>
    exact inv_go h hi .done rfl (grows_of (some (.gave k' id)) rfl (by simp [fetches]) rfl (put_ne _ hgood _))
      (put_ne _ hgood _) rfl trivial (fun e => by cases e) (log_one rfl (by simp))
  | done => exact h

theorem inv_step {k : Key} {s : St} (h : Inv k s) (hids : Ids s) (x : Act) (hx : ∀ p, x ≠ .other k p) :
    Inv k (s.step x) := by
  have add : ∀ pc, owner k pc = false → Good k s pc → Inv k { s with threads := s.threads ++ [pc] } := by
    intro pc ho hg
    refine inv_quiet h (grows_of none (by simp) (by simp) rfl rfl) rfl ?_ ?_ ?_ (log_none rfl)
    · show (s.threads ++ [pc]).countP (owner k) = _
      rw [List.countP_append, h.own]; simp [ho]
    · intro y hy
      have hy : y ∈ s.threads ++ [pc] := hy
      rw [List.mem_append, List.mem_singleton] at hy
      rcases hy with hy | rfl
      · exact .inl hy
      · refine .inr (good_grows (s := s) (grows_of none (by simp) (by simp) rfl rfl) hg)
    · intro y hy hl
      exact .inr ⟨y, List.mem_append_left _ hy, hl⟩
  cases x with
  | request k' => exact add _ rfl trivial
  | other k' p => exact add _ rfl (fun e => hx p (by rw [e]))
  | take =>
    refine inv_quiet h (grows_of (some (.taken s.completed)) rfl (by simp [fetches]) rfl rfl) rfl h.own
      (fun _ h => .inl h) (fun pc hpc hl => .inr ⟨pc, hpc, hl⟩) (log_one rfl (by simp))
  | run i r ok =>
    simp only [St.step]
    cases hi : s.threads[i]? with
    | none => exact h
    | some pc => exact inv_move h hids i r ok hi

theorem inv_after (k : Key) (acts : List Act) (hk : Source k acts) : Inv k (after acts) := by
  induction acts using List.reverseRecOn with
  | nil =>
    exact ⟨rfl, fun _ h => (by cases h), Nat.zero_le _, fun h => absurd rfl h, fun _ h => (by cases h),
      fun h => absurd rfl h, fun _ h => (by cases h)⟩
  | append_singleton acts x ih =>
    rw [after_snoc]
    refine inv_step (ih (fun p hp => hk p (by simp [hp]))) (ids_after acts) x ?_
    rintro p rfl
    exact hk p (by simp)

/-! ## The engine is told -/

/-- A request that found nothing is followed by news, or a thread is still at work for it. -/
def Wake (k : Key) (s : St) : Prop :=
  ∀ a b, s.log = a ++ .missed k :: b →
    (∃ pc ∈ s.threads, busy k pc = true) ∨ .noThread k ∈ s.log ∨ Told k s (a ++ [.missed k]) b

theorem wake_of {k : Key} {s s' : St} (h : Wake k s) (e : Option Event) (hl : s'.log = s.log ++ e.toList)
    (hmiss : e = some (.missed k) → ∃ pc ∈ s'.threads, busy k pc = true)
    (hbusy : (∃ pc ∈ s.threads, busy k pc = true) →
      (∃ pc ∈ s'.threads, busy k pc = true) ∨ .noThread k ∈ s'.log ∨ (s'.completed = true ∧ s'.cache k ≠ none))
    (htold : s.completed = true → s.cache k ≠ none →
      (s'.completed = true ∧ s'.cache k ≠ none) ∨ (e = some (.taken true) ∧ .stored k ∈ s.log)) : Wake k s' := by
  have old : ∀ a b0 b, s.log = a ++ .missed k :: b0 → b = b0 ++ e.toList →
      (∃ pc ∈ s'.threads, busy k pc = true) ∨ .noThread k ∈ s'.log ∨ Told k s' (a ++ [.missed k]) b := by
    intro a b0 b hab hb
    rcases h a b0 hab with h1 | h1 | ⟨h1, h2⟩ | ⟨b1, b2, h1, h2⟩
    · rcases hbusy h1 with h2 | h2 | h2
      · exact .inl h2
      · exact .inr (.inl h2)
      · exact .inr (.inr (.inl h2))
    · exact .inr (.inl (by rw [hl]; simp [h1]))
    · rcases htold h1 h2 with h3 | ⟨h3, h4⟩
      · exact .inr (.inr (.inl h3))
      · refine .inr (.inr (.inr ⟨b0, [], by rw [hb, h3]; rfl, ?_⟩))
        rw [hab] at h4
        simpa using h4
    · exact .inr (.inr (.inr ⟨b1, b2 ++ e.toList, by rw [hb, h1]; simp, h2⟩))
  intro a b hab
  rw [hl] at hab
  cases e with
  | none =>
    rw [Option.toList_none, List.append_nil] at hab
    exact old a b b hab (by simp)
  | some x =>
    rw [Option.toList_some] at hab
    rcases List.eq_nil_or_concat b with rfl | ⟨b0, y, rfl⟩
    · have := List.append_inj' hab rfl
      refine .inl (hmiss ?_)
      have h2 := this.2
      simp only [List.cons.injEq, and_true] at h2
      rw [h2]
    · have h3 : s.log ++ [x] = (a ++ .missed k :: b0) ++ [y] := by rw [hab]; simp
      have h4 := List.append_inj' h3 rfl
      refine old a b0 _ h4.1 ?_
      have h5 := h4.2
      rw [Option.toList_some, h5, List.concat_eq_append]

theorem owner_busy {k : Key} {pc : Pc} (h : owner k pc = true) : busy k pc = true := by
  cases pc <;> first | exact h | cases h

theorem wake_go {k : Key} {s s' : St} (h : Wake k s) {i : Nat} {pc : Pc} (hi : s.threads[i]? = some pc) (pc' : Pc)
    (ht : s'.threads = s.threads.set i pc') (e : Option Event) (hl : s'.log = s.log ++ e.toList)
    (hmiss : e = some (.missed k) → busy k pc' = true)
    (hb : busy k pc = true → (∃ x ∈ s'.threads, busy k x = true) ∨ .noThread k ∈ s'.log ∨
      (s'.completed = true ∧ s'.cache k ≠ none))
    (hc : s.completed = true → s'.completed = true) (hk : s.cache k ≠ none → s'.cache k ≠ none) : Wake k s' := by
  refine wake_of h e hl ?_ ?_ (fun h1 h2 => .inl ⟨hc h1, hk h2⟩)
  · intro he
    exact ⟨pc', by rw [ht]; exact mem_new hi, hmiss he⟩
  · rintro ⟨x, hx, hbx⟩
    by_cases e : x = pc
    · subst e; exact hb hbx
    · exact .inl ⟨x, by rw [ht]; exact mem_keep hi hx e, hbx⟩

theorem orInsert_some (c : Key → Option Nat) (k k' : Key) (id : Nat) (h : c k ≠ none) : orInsert c k' id k ≠ none := by
  unfold orInsert
  split
  · simp
  · exact h

theorem wake_move {k : Key} {s : St} (h : Wake k s) (hinv : Inv k s) (i : Nat) (r : Option Nat) (ok : Bool) {pc : Pc}
    (hi : s.threads[i]? = some pc) : Wake k (s.move i r ok pc) := by
  have hm : pc ∈ s.threads := List.mem_of_getElem? hi
  have hgood := hinv.good pc hm
  have new : ∀ pc', (pc' ∈ s.threads.set i pc') := fun pc' => mem_new hi
  cases pc with
  | req k' =>
    simp only [St.move]
    split
    · exact wake_go h hi .done rfl (some _) rfl (by simp) (fun e => by cases e) id id
    · refine wake_go h hi (.miss k') rfl (some (.missed k')) rfl ?_ (fun e => by cases e) id id
      intro e; cases e; simp [busy]
  | miss k' =>
    simp only [St.move]
    split
    · rename_i hp
      refine wake_go h hi .done rfl (some (.answered k' none)) rfl (by simp) ?_ id id
      intro e
      have e : k' = k := by simpa [busy] using e
      subst e
      have h1 : 0 < s.threads.countP (owner k') := by rw [hinv.own, hp]; decide
      obtain ⟨x, hx, ho⟩ := List.countP_pos_iff.1 h1
      refine .inl ⟨x, mem_keep hi hx ?_, owner_busy ho⟩
      rintro rfl; cases ho
    · exact wake_go h hi (.own k') rfl none (by simp [St.go]) (by simp) (fun e => .inl ⟨_, new _, e⟩) id id
  | own k' =>
    simp only [St.move]
    split
    · refine wake_of h (some (.answered k' none)) rfl (by simp) ?_ (fun h1 h2 => .inl ⟨h1, h2⟩)
      rintro ⟨x, hx, hbx⟩
      by_cases e : x = .own k'
      · subst e
        exact .inl ⟨.load k', List.mem_append_right _ (by simp), hbx⟩
      · exact .inl ⟨x, List.mem_append_left _ (mem_keep hi hx e), hbx⟩
    · exact wake_go h hi (.noSpawn k') rfl (some (.noThread k')) rfl (by simp) (fun e => .inl ⟨_, new _, e⟩) id id
  | noSpawn k' =>
    refine wake_go h hi .done rfl (some (.answered k' none)) rfl (by simp) ?_ id id
    intro e
    have e : k' = k := by simpa [busy] using e
    exact .inr (.inl (List.mem_append_left _ (hgood e)))
  | load k' =>
    simp only [St.move]
    split
    · exact wake_go h hi (.drop k') rfl none (by simp [St.go]) (by simp) (fun e => .inl ⟨_, new _, e⟩) id id
    · exact wake_go h hi (.fetch k') rfl none (by simp [St.go]) (by simp) (fun e => .inl ⟨_, new _, e⟩) id id
  | fetch k' =>
    simp only [St.move]
    split
    · exact wake_go h hi (.failed k') rfl (some _) rfl (by simp) (fun e => .inl ⟨_, new _, e⟩) id id
    · exact wake_go h hi (.alloc k' _) rfl (some _) rfl (by simp) (fun e => .inl ⟨_, new _, e⟩) id id
  | failed k' =>
    exact wake_go h hi (.drop k') rfl (some (.stored k')) rfl (by simp) (fun e => .inl ⟨_, new _, e⟩) id
      (orInsert_some _ _ _ _)
  | alloc k' p =>
    exact wake_go h hi (.entry k' s.next p) rfl none (by simp [St.go, St.move]) (by simp) (fun e => .inl ⟨_, new _, e⟩) id id
  | entry k' id' p =>
    exact wake_go h hi (.store k' id') rfl none (by simp [St.go, St.move]) (by simp) (fun e => .inl ⟨_, new _, e⟩) id id
  | store k' id' =>
    exact wake_go h hi (.drop k') rfl (some (.stored k')) rfl (by simp) (fun e => .inl ⟨_, new _, e⟩) id
      (orInsert_some _ _ _ _)
  | drop k' =>
    exact wake_go h hi (.signal k') rfl none (by simp [St.go, St.move]) (by simp) (fun e => .inl ⟨_, new _, e⟩) id id
  | signal k' =>
    refine wake_go h hi .done rfl none (by simp [St.go, St.move]) (by simp) ?_ (fun _ => rfl) id
    intro e
    have e : k' = k := by simpa [busy] using e
    exact .inr (.inr ⟨rfl, hgood e⟩)
  | other k' p =>
    simp only [St.move]
    split
    · exact wake_go h hi .done rfl (some _) rfl (by simp) (fun e => by cases e) id id
    · exact wake_go h hi (.otherAlloc k' p) rfl none (by simp [St.go]) (by simp) (fun e => by cases e) id id
  | otherAlloc k' p =>
    exact wake_go h hi (.otherEntry k' s.next p) rfl none (by simp [St.go, St.move]) (by simp) (fun e => by cases e) id id
  | otherEntry k' id' p =>
    exact wake_go h hi (.otherStore k' id') rfl none (by simp [St.go, St.move]) (by simp) (fun e => by cases e) id id
  | otherStore k' id' =>
    refine wake_go h hi .done rfl (some (.gave k' id')) rfl (by simp) (fun e => by cases e) id ?_
    intro hk
    show put s.cache k' (some id') k ≠ none
    rw [put_ne _ hgood]; exact hk
  | done => exact h

theorem wake_step {k : Key} {s : St} (h : Wake k s) (hinv : Inv k s) (x : Act) : Wake k (s.step x) := by
  have add : ∀ pc, Wake k { s with threads := s.threads ++ [pc] } := by
    intro pc
    refine wake_of h none (by simp) (by simp) ?_ (fun h1 h2 => .inl ⟨h1, h2⟩)
    rintro ⟨x, hx, hb⟩
    exact .inl ⟨x, List.mem_append_left _ hx, hb⟩
  cases x with
  | request k' => exact add _
  | other k' p => exact add _
  | take =>
    refine wake_of h (some (.taken s.completed)) rfl (by simp) (fun h => .inl h) ?_
    intro h1 h2
    rw [h1]
    exact .inr ⟨rfl, hinv.stored h2⟩
  | run i r ok =>
    simp only [St.step]
    cases hi : s.threads[i]? with
    | none => exact h
    | some pc => exact wake_move h hinv i r ok hi

theorem wake_after (k : Key) (acts : List Act) (hk : Source k acts) : Wake k (after acts) := by
  induction acts using List.reverseRecOn with
  | nil => intro a b h; cases a <;> cases h
  | append_singleton acts x ih =>
    rw [after_snoc]
    have h1 : Source k acts := fun p hp => hk p (by simp [hp])
    exact wake_step (ih h1) (inv_after k acts h1) x

end Verif.Media
