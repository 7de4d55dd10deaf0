import Verif.RenderTree.Spec

/-! # C125: generated content, and C126: the render tree -/

namespace Verif.RenderTree

/-! ## The ids of generated nodes -/

theorem and_above (w i : Nat) (h : w < 2 ^ i) : w &&& 2 ^ i = 0 := by
  apply Nat.eq_of_testBit_eq
  intro k
  rw [Nat.testBit_and, Nat.testBit_two_pow, Nat.zero_testBit]
  by_cases hk : i = k
  · subst hk; rw [Nat.testBit_lt_two_pow h]; rfl
  · simp [hk]

theorem and_flag (w : Nat) (h : w < 2 ^ 62) : w &&& (2 ^ 64 - 1 - pseudoFlag) = w := by
  have e : 2 ^ 64 - 1 - pseudoFlag = 2 ^ 63 ||| (2 ^ 62 - 1) := by decide
  rw [e, Nat.and_or_distrib_left, Nat.and_two_pow_sub_one_eq_mod,
    and_above w 63 (Nat.lt_of_lt_of_le h (by decide)), Nat.mod_eq_of_lt h]
  simp

theorem encode_eq (owner role : Nat) (ho : owner < 2 ^ 60) (hr : role < 4) :
    encode owner role = pseudoFlag ||| (4 * owner + role) ∧
    encode owner role = 2 ^ 62 + 4 * owner + role ∧ 4 * owner + role < 2 ^ 62 := by
  have h1 : owner <<< 2 % 2 ^ 64 = 2 ^ 2 * owner := by
    rw [Nat.shiftLeft_eq, Nat.mod_eq_of_lt (by omega)]; omega
  have h2 : encode owner role = pseudoFlag ||| (4 * owner + role) := by
    unfold encode
    rw [h1, Nat.or_assoc, ← Nat.two_pow_add_eq_or_of_lt (i := 2) (by omega)]
  refine ⟨h2, ?_, by omega⟩
  have h3 : pseudoFlag = 2 ^ 62 * 1 := by decide
  rw [h2, h3, ← Nat.two_pow_add_eq_or_of_lt (by omega)]; omega

theorem decode_encode (owner role : Nat) (ho : owner < 2 ^ 60) (hr : role < 4) :
    decode (encode owner role) = (owner, role) := by
  obtain ⟨h1, _, h3⟩ := encode_eq owner role ho hr
  unfold decode
  have e : pseudoFlag &&& (2 ^ 64 - 1 - pseudoFlag) = 0 := by decide
  rw [h1, Nat.and_or_distrib_right, e, Nat.zero_or, and_flag _ h3]
  have e2 : (3 : Nat) = 2 ^ 2 - 1 := rfl
  simp only
  rw [Nat.shiftRight_eq_div_pow, e2, Nat.and_two_pow_sub_one_eq_mod]
  congr 1 <;> omega

theorem isPseudo_encode (owner role : Nat) (ho : owner < 2 ^ 60) (hr : role < 4) :
    isPseudo (encode owner role) = true := by
  obtain ⟨h1, _, h3⟩ := encode_eq owner role ho hr
  unfold isPseudo
  have e : pseudoFlag = 2 ^ 62 := by decide
  rw [h1, Nat.and_or_distrib_right, Nat.and_self, e, and_above _ 62 h3]
  decide

theorem isPseudo_small (n : Nat) (h : n < 2 ^ 62) : isPseudo n = false := by
  unfold isPseudo
  have e : pseudoFlag = 2 ^ 62 := by decide
  rw [e, and_above n 62 h]
  decide

/-- **C125** The ids of generated nodes: two different nodes of a page, real or generated, never have
the same id, and the engine finds out from the id what node it is. -/
theorem C125_ids (g h : GNode) (hg : g.Small) (hh : h.Small) (e : g.id = h.id) : g = h := by
  cases g <;> cases h <;> simp only [GNode.Small, GNode.id] at *
  · rw [e]
  · omega
  · omega
  · omega
  · rename_i n b m c
    cases b <;> cases c <;> simp at e <;> first | omega | (congr 1; omega)
  · rename_i n b m c
    cases b <;> cases c <;> simp at e <;> omega
  · omega
  · rename_i n b m c
    cases b <;> cases c <;> simp at e <;> omega
  · rename_i n b m c
    cases b <;> cases c <;> simp at e <;> first | omega | (congr 1; omega)

example : (GNode.box 7 true).Small ∧ (GNode.text 7 true).Small ∧
    (GNode.box 7 true).id ≠ (GNode.text 7 true).id := by
  refine ⟨by simp [GNode.Small], by simp [GNode.Small], by decide⟩

theorem box_id (n : Nat) (b : Bool) (h : n < 2 ^ 60) :
    (GNode.box n b).id = encode n (if b then afterElem else beforeElem) := by
  have := (encode_eq n (if b then afterElem else beforeElem) h (by cases b <;> decide)).2.1
  rw [this]; cases b <;> rfl

theorem text_id (n : Nat) (b : Bool) (h : n < 2 ^ 60) :
    (GNode.text n b).id = encode n (if b then afterText else beforeText) := by
  have := (encode_eq n (if b then afterText else beforeText) h (by cases b <;> decide)).2.1
  rw [this]; cases b <;> rfl

theorem box_decode (n : Nat) (b : Bool) (h : n < 2 ^ 60) :
    isPseudo (GNode.box n b).id = true ∧
    decode (GNode.box n b).id = (n, if b then afterElem else beforeElem) := by
  have hr : (if b then afterElem else beforeElem) < 4 := by cases b <;> decide
  rw [box_id n b h]
  exact ⟨isPseudo_encode _ _ h hr, decode_encode _ _ h hr⟩

theorem text_decode (n : Nat) (b : Bool) (h : n < 2 ^ 60) :
    isPseudo (GNode.text n b).id = true ∧
    decode (GNode.text n b).id = (n, if b then afterText else beforeText) := by
  have hr : (if b then afterText else beforeText) < 4 := by cases b <;> decide
  rw [text_id n b h]
  exact ⟨isPseudo_encode _ _ h hr, decode_encode _ _ h hr⟩

/-- **C125** The document that layout and painting see has for every node exactly the children, the
parent, the kind and the text that it has on the page with its generated content: `::before` comes
first and `::after` last, the generated text is the only child of its box, and a box without text has
none. -/
theorem C125_tree (d : Real) (here : Nat → Prop) (ht : d.Tree here) (g : GNode) (hg : g.Here d here) :
    d.kids g.id = (g.kids d).map GNode.id ∧ d.parentOf g.id = (g.parent d).map GNode.id ∧
    d.nodeKind g.id = g.kind d ∧ d.nodeText g.id = g.content d := by
  cases g with
  | real n =>
    have hs : n < 2 ^ 60 := ht.small n hg
    have hp : isPseudo n = false := isPseudo_small n (by omega)
    have e1 := box_id n false hs
    have e2 := box_id n true hs
    simp only [Bool.false_eq_true, if_false, if_true] at e1 e2
    refine ⟨?_, ?_, ?_, ?_⟩
    · have hm : (d.children n).map (GNode.id ∘ GNode.real) = d.children n := by
        have : (GNode.id ∘ GNode.real) = id := rfl
        rw [this, List.map_id]
      show d.kids n = _
      simp only [Real.kids, hp, Bool.false_eq_true, if_false, GNode.kids, List.map_append, List.map_map, hm]
      rw [← e1, ← e2]
      cases d.pseudo n false <;> cases d.pseudo n true <;> rfl
    · show d.parentOf n = _
      simp only [Real.parentOf, hp, Bool.false_eq_true, if_false, GNode.parent]
      cases d.parent n <;> rfl
    · show d.nodeKind n = _
      simp only [Real.nodeKind, hp, Bool.false_eq_true, if_false, GNode.kind]
      cases d.kind n <;> rfl
    · show d.nodeText n = _
      simp only [Real.nodeText, hp, Bool.false_eq_true, if_false, GNode.content]
  | box n b =>
    obtain ⟨hn, pb, hpb⟩ := hg
    have hs : n < 2 ^ 60 := ht.small n hn
    obtain ⟨hp, hd⟩ := box_decode n b hs
    have e := text_id n b hs
    have ra : roleIsAfter (if b then afterElem else beforeElem) = b := by cases b <;> rfl
    have rt : roleIsText (if b then afterElem else beforeElem) = false := by cases b <;> rfl
    refine ⟨?_, ?_, ?_, ?_⟩
    · simp only [Real.kids, hp, if_true, hd, rt, Bool.false_eq_true, if_false, ra, hpb, GNode.kids]
      obtain ⟨t, dn⟩ := pb
      cases t with
      | none => rfl
      | some t => simp [e]
    · simp only [Real.parentOf, hp, if_true, hd, rt, Bool.false_eq_true, if_false, GNode.parent]
      rfl
    · simp only [Real.nodeKind, hp, if_true, hd, rt, Bool.false_eq_true, if_false, GNode.kind]
    · simp only [Real.nodeText, hp, if_true, hd, rt, Bool.false_eq_true, if_false, GNode.content]
  | text n b =>
    obtain ⟨hn, t, dn, hpb⟩ := hg
    have hs : n < 2 ^ 60 := ht.small n hn
    obtain ⟨hp, hd⟩ := text_decode n b hs
    have e := box_id n b hs
    have ra : roleIsAfter (if b then afterText else beforeText) = b := by cases b <;> rfl
    have rt : roleIsText (if b then afterText else beforeText) = true := by cases b <;> rfl
    refine ⟨?_, ?_, ?_, ?_⟩
    · simp only [Real.kids, hp, if_true, hd, rt, GNode.kids, List.map_nil]
    · simp only [Real.parentOf, hp, if_true, hd, rt, ra, GNode.parent, Option.map_some, e]
    · simp only [Real.nodeKind, hp, if_true, hd, rt, GNode.kind]
    · simp only [Real.nodeText, hp, if_true, hd, rt, ra, GNode.content, hpb]
      rfl

/-- **C125** On the page with its generated content, a node is a child of its parent and of no other
node. -/
theorem C125_parents (d : Real) (here : Nat → Prop) (ht : d.Tree here) (g p : GNode)
    (hg : g.Here d here) (hp : p.Here d here) :
    d.parentOf g.id = some p.id ↔ g.id ∈ d.kids p.id := by
  have small : ∀ g : GNode, g.Here d here → g.Small := by
    intro g hg
    cases g with
    | real n => exact ht.small n hg
    | box n b => exact ht.small n hg.1
    | text n b => exact ht.small n hg.1
  have kidsHere : ∀ p : GNode, p.Here d here → ∀ g ∈ p.kids d, g.Here d here := by
    intro p hp g hgk
    cases p with
    | real n =>
      simp only [GNode.kids, List.mem_append, List.mem_map] at hgk
      rcases hgk with (hgk | ⟨c, hc, rfl⟩) | hgk
      · cases h : d.pseudo n false with
        | none => rw [h] at hgk; cases hgk
        | some pb => rw [h] at hgk; simp only [List.mem_singleton] at hgk; subst hgk; exact ⟨hp, pb, h⟩
      · exact ht.closed n hp c hc
      · cases h : d.pseudo n true with
        | none => rw [h] at hgk; cases hgk
        | some pb => rw [h] at hgk; simp only [List.mem_singleton] at hgk; subst hgk; exact ⟨hp, pb, h⟩
    | box n b =>
      simp only [GNode.kids] at hgk
      split at hgk
      · rename_i t dn h
        simp only [List.mem_singleton] at hgk; subst hgk; exact ⟨hp.1, t, dn, h⟩
      · cases hgk
    | text n b => cases hgk
  rw [(C125_tree d here ht g hg).2.1, (C125_tree d here ht p hp).1]
  have hmem : g.id ∈ (p.kids d).map GNode.id ↔ g ∈ p.kids d := by
    constructor
    · intro h
      obtain ⟨g', h1, h2⟩ := List.mem_map.1 h
      rw [← C125_ids g' g (small _ (kidsHere p hp g' h1)) (small _ hg) h2]; exact h1
    · exact fun h => List.mem_map.2 ⟨g, h, rfl⟩
  rw [hmem]
  cases g with
  | real n =>
    cases hpar : d.parent n with
    | none =>
      simp only [GNode.parent, hpar, Option.map_none, false_iff, reduceCtorEq]
      intro hk
      cases p with
      | real m =>
        simp only [GNode.kids, List.mem_append, List.mem_map] at hk
        rcases hk with (hk | ⟨c, hc, hcn⟩) | hk
        · split at hk <;> simp at hk
        · cases hcn
          have := (ht.up n hg m).2 ⟨hp, hc⟩
          rw [hpar] at this; cases this
        · split at hk <;> simp at hk
      | box m b =>
        simp only [GNode.kids] at hk
        split at hk <;> simp at hk
      | text m b => cases hk
    | some q =>
      simp only [GNode.parent, hpar, Option.map_some, Option.some.injEq]
      constructor
      · intro hq
        have hq' := (ht.up n hg q).1 hpar
        have : GNode.real q = p := C125_ids _ _ (ht.small q hq'.1) (small p hp) hq
        subst this
        simp [GNode.kids, hq'.2]
      · intro hk
        cases p with
        | real m =>
          simp only [GNode.kids, List.mem_append, List.mem_map] at hk
          rcases hk with (hk | ⟨c, hc, hcn⟩) | hk
          · split at hk <;> simp at hk
          · cases hcn
            have := (ht.up n hg m).2 ⟨hp, hc⟩
            rw [hpar] at this; cases this; rfl
          · split at hk <;> simp at hk
        | box m b =>
          simp only [GNode.kids] at hk
          split at hk <;> simp at hk
        | text m b => cases hk
  | box n b =>
    obtain ⟨hn, pb, hpb⟩ := hg
    simp only [GNode.parent, Option.map_some, Option.some.injEq]
    constructor
    · intro hq
      have : GNode.real n = p := C125_ids _ _ (ht.small n hn) (small p hp) hq
      subst this
      cases b <;> simp [GNode.kids, hpb]
    · intro hk
      cases p with
      | real m =>
        simp only [GNode.kids, List.mem_append, List.mem_map] at hk
        rcases hk with (hk | ⟨c, hc, hcn⟩) | hk
        · split at hk <;> simp at hk
          rw [hk.1]
        · cases hcn
        · split at hk <;> simp at hk
          rw [hk.1]
      | box m c =>
        simp only [GNode.kids] at hk
        split at hk <;> simp at hk
      | text m c => cases hk
  | text n b =>
    obtain ⟨hn, t, dn, hpb⟩ := hg
    simp only [GNode.parent, Option.map_some, Option.some.injEq]
    constructor
    · intro hq
      have : GNode.box n b = p := C125_ids _ _ (ht.small n hn) (small p hp) hq
      subst this
      simp [GNode.kids, hpb]
    · intro hk
      cases p with
      | real m =>
        simp only [GNode.kids, List.mem_append, List.mem_map] at hk
        rcases hk with (hk | ⟨c, hc, hcn⟩) | hk
        · split at hk <;> simp at hk
        · cases hcn
        · split at hk <;> simp at hk
      | box m c =>
        simp only [GNode.kids] at hk
        split at hk <;> simp at hk
        rw [hk.1, hk.2]
      | text m c => cases hk

/-- An element 1 with a text 2 and both generated boxes, the second of them without text. -/
def sample : Real where
  kind := fun n => if n = 2 then .text else if n = 0 then .document else .element
  children := fun n => if n = 0 then [1] else if n = 1 then [2] else []
  parent := fun n => if n = 1 then some 0 else if n = 2 then some 1 else none
  tag := fun n => if n = 1 then some "p" else none
  text := fun n => if n = 2 then "hello" else ""
  displayNone := fun _ => false
  pseudo := fun n b => if n = 1 then some ⟨if b then none else some "> ", false⟩ else none

theorem sample_tree : sample.Tree (fun n => n < 3) := by
  refine ⟨fun n h => by omega, ?_, ?_⟩
  · intro n h c hc
    have : n = 0 ∨ n = 1 ∨ n = 2 := by omega
    rcases this with rfl | rfl | rfl <;> simp [sample] at hc <;> omega
  · intro n h p
    have : n = 0 ∨ n = 1 ∨ n = 2 := by omega
    constructor
    · rcases this with rfl | rfl | rfl
      · intro hp; simp [sample] at hp
      · intro hp; simp [sample] at hp; subst hp; exact ⟨by omega, by simp [sample]⟩
      · intro hp; simp [sample] at hp; subst hp; exact ⟨by omega, by simp [sample]⟩
    · rintro ⟨h1, h2⟩
      have hp : p = 0 ∨ p = 1 ∨ p = 2 := by omega
      rcases hp with rfl | rfl | rfl <;> simp [sample] at h2 <;> subst h2 <;> rfl

example : (GNode.text 1 false).Here sample (fun n => n < 3) ∧
    sample.kids 1 = [2 ^ 62 + 4, 2, 2 ^ 62 + 5] ∧ sample.kids (2 ^ 62 + 4) = [2 ^ 62 + 6] ∧
    sample.kids (2 ^ 62 + 5) = [] := by
  refine ⟨⟨by omega, "> ", false, by simp [sample]⟩, by decide, by decide, by decide⟩

/-- **C125 is violated**: the node that is looked up by its id (`get_node_by_id`) has only the children
of the document; the generated boxes, which `children` lists, are missing. -/
theorem C125_node_children_violated : ∃ (d : Real) (here : Nat → Prop) (n : Nat), d.Tree here ∧ here n ∧
    d.nodeChildren n ≠ d.kids n :=
  ⟨sample, fun n => n < 3, 1, sample_tree, by omega, by decide⟩

/-- The limit of the encoding: an owner of 2⁶⁰ or more would share the ids of another. -/
theorem C125_limit : encode (2 ^ 60) 0 = encode 0 0 := by decide

/-! ## The render tree -/

theorem visible_iff (d : Doc) (n : Nat) : d.isVisible n = true ↔ ¬ Hidden d n := by
  unfold Doc.isVisible Hidden
  cases hk : d.kind n with
  | comment => simp
  | text => simp
  | element =>
    cases ht : d.tag n with
    | none => simp
    | some t =>
      have hm : invisibleElements.contains t = true ↔ (t = "head" ∨ t = "style" ∨ t = "script" ∨
          t = "meta" ∨ t = "link" ∨ t = "title") := by
        simp [invisibleElements]
      by_cases h : invisibleElements.contains t = true
      · simp only [if_pos h]
        have h := hm.1 h
        simp only [Bool.false_eq_true, reduceCtorEq, Option.some.injEq, true_and, false_or, false_iff,
          Classical.not_not]
        rcases h with h | h | h | h | h | h <;> simp [h]
      · simp only [if_neg h]
        rw [hm] at h
        simp only [not_or] at h
        simp [h]

theorem hidden_of (d : Doc) (n : Nat) (h : d.isVisible n = false) : Hidden d n := by
  apply Classical.byContradiction
  intro hh
  rw [(visible_iff d n).2 hh] at h
  cases h

/-- The result of a node. -/
def res (d : Doc) (n : Nat) : Option Nat := if d.isVisible n then some n else none

theorem push_all (l : List Nat) (st : List Frame) :
    l.reverse.foldl (fun st c => .process c :: st) st = l.map .process ++ st := by
  induction l with
  | nil => rfl
  | cons a l ih => simp [ih]

/-- The arena after the part below some nodes has been built. -/
def Built (d : Doc) (ns : List Nat) (a a' : Nat → Option (List Nat)) : Prop :=
  ∀ k, ((∃ n ∈ ns, Shown d n k) → a' k = some ((d.children k).filter d.isVisible)) ∧
    ((¬ ∃ n ∈ ns, Shown d n k) → a' k = a k)

theorem shown_from (d : Doc) (n k : Nat) (h : Shown d n k) :
    k = n ∨ ∃ c ∈ d.children n, Shown d c k := by
  induction h with
  | root h => exact .inl rfl
  | child hp hc hh ih =>
    rcases ih with rfl | ⟨c', h1, h2⟩
    · exact .inr ⟨_, hc, .root hh⟩
    · exact .inr ⟨c', h1, .child h2 hc hh⟩

theorem shown_root (d : Doc) (n k : Nat) (h : Shown d n k) : ¬ Hidden d n := by
  induction h with
  | root h => exact h
  | child _ _ _ ih => exact ih

theorem shown_up (d : Doc) (n c k : Nat) (hn : ¬ Hidden d n) (hc : c ∈ d.children n) (h : Shown d c k) :
    Shown d n k := by
  induction h with
  | root h => exact .child (.root hn) hc h
  | child _ hm hh ih => exact .child ih hm hh

theorem run_list (d : Doc) (ns : List Nat)
    (ih : ∀ c ∈ ns, ∀ (st : List Frame) (r : List (Option Nat)) (a : Nat → Option (List Nat)),
      ∃ k a', Built d [c] a a' ∧ ∀ fuel, loop d (k + fuel) ⟨.process c :: st, r, a⟩ =
        loop d fuel ⟨st, r ++ [res d c], a'⟩) :
    ∀ (st : List Frame) (r : List (Option Nat)) (a : Nat → Option (List Nat)),
      ∃ k a', Built d ns a a' ∧ ∀ fuel, loop d (k + fuel) ⟨ns.map .process ++ st, r, a⟩ =
        loop d fuel ⟨st, r ++ ns.map (res d), a'⟩ := by
  induction ns with
  | nil =>
    intro st r a
    refine ⟨0, a, ?_, ?_⟩
    · intro k; exact ⟨fun ⟨n, hn, _⟩ => by simp at hn, fun _ => rfl⟩
    · intro fuel; simp
  | cons c cs ihl =>
    intro st r a
    obtain ⟨k1, a1, hb1, h1⟩ := ih c (by simp) (cs.map .process ++ st) r a
    obtain ⟨k2, a2, hb2, h2⟩ := ihl (fun c hc => ih c (by simp [hc])) st (r ++ [res d c]) a1
    refine ⟨k1 + k2, a2, ?_, ?_⟩
    · intro k
      by_cases h : ∃ n ∈ cs, Shown d n k
      · have := (hb2 k).1 h
        refine ⟨fun _ => this, fun hno => absurd ?_ hno⟩
        obtain ⟨n, hn, hs⟩ := h
        exact ⟨n, by simp [hn], hs⟩
      · have e := (hb2 k).2 h
        constructor
        · rintro ⟨n, hn, hs⟩
          rcases List.mem_cons.1 hn with rfl | hn
          · rw [e]; exact (hb1 k).1 ⟨n, by simp, hs⟩
          · exact absurd ⟨n, hn, hs⟩ h
        · intro hno
          rw [e]
          refine (hb1 k).2 ?_
          rintro ⟨n, hn, hs⟩
          simp only [List.mem_singleton] at hn
          subst hn
          exact hno ⟨n, by simp, hs⟩
    · intro fuel
      rw [Nat.add_assoc]
      have := h1 (k2 + fuel)
      simp only [List.map_cons, List.cons_append]
      rw [this, h2 fuel]
      simp

theorem filterMap_res (d : Doc) (l : List Nat) :
    (l.map (res d)).filterMap (fun r => r) = l.filter d.isVisible := by
  induction l with
  | nil => rfl
  | cons a l ih =>
    simp only [List.map_cons, List.filterMap_cons, List.filter_cons, res]
    cases d.isVisible a with
    | true => simpa using ih
    | false => simpa using ih

theorem run_node (d : Doc) (n : Nat) (hf : Finite d n) :
    ∀ (st : List Frame) (r : List (Option Nat)) (a : Nat → Option (List Nat)),
      ∃ k a', Built d [n] a a' ∧ ∀ fuel, loop d (k + fuel) ⟨.process n :: st, r, a⟩ =
        loop d fuel ⟨st, r ++ [res d n], a'⟩ := by
  induction hf with
  | mk n _ ih =>
    intro st r a
    cases hv : d.isVisible n with
    | false =>
      have hh : Hidden d n := hidden_of d n hv
      refine ⟨1, a, ?_, ?_⟩
      · intro k
        refine ⟨?_, fun _ => rfl⟩
        rintro ⟨m, hm, hs⟩
        simp only [List.mem_singleton] at hm
        subst hm
        exact absurd hh (shown_root d m k hs)
      · intro fuel
        rw [Nat.add_comm, loop]
        simp [step, hv, res]
    | true =>
      have hh : ¬ Hidden d n := (visible_iff d n).1 hv
      obtain ⟨k1, a1, hb, h1⟩ := run_list d (d.children n) ih
        (.collect n (d.children n).length :: st) r a
      refine ⟨1 + k1 + 1, put a1 n ((d.children n).filter d.isVisible), ?_, ?_⟩
      · intro k
        constructor
        · rintro ⟨m, hm, hs⟩
          simp only [List.mem_singleton] at hm
          subst hm
          unfold put
          by_cases hk : k = m
          · subst hk; simp
          · rw [if_neg hk]
            rcases shown_from d m k hs with h | h
            · exact absurd h hk
            · exact (hb k).1 h
        · intro hno
          have hk : k ≠ n := by
            rintro rfl
            exact hno ⟨k, by simp, .root hh⟩
          unfold put
          rw [if_neg hk]
          refine (hb k).2 ?_
          rintro ⟨c, hc, hs⟩
          exact hno ⟨n, by simp, shown_up d n c k hh hc hs⟩
      · intro fuel
        have e : 1 + k1 + 1 + fuel = (k1 + (fuel + 1)) + 1 := by omega
        rw [e, loop]
        simp only [step, hv, Bool.not_true, Bool.false_eq_true, if_false, push_all]
        rw [h1 (fuel + 1), loop]
        simp only [step]
        have hl : (r ++ (d.children n).map (res d)).length - (d.children n).length = r.length := by simp
        rw [hl, List.drop_left, List.take_left, filterMap_res]
        simp [res, hv]

theorem without_iff (d : Doc) (l l' : List Nat) : Without d l l' ↔ l' = l.filter d.isVisible := by
  constructor
  · intro h
    induction h with
    | nil => rfl
    | @hidden n l l' hh _ ih =>
      have : d.isVisible n = false := by
        cases hv : d.isVisible n with
        | false => rfl
        | true => exact absurd hh ((visible_iff d n).1 hv)
      simp [this, ih]
    | @shown n l l' hh _ ih => simp [(visible_iff d n).2 hh, ih]
  · rintro rfl
    induction l with
    | nil => exact .nil
    | cons n l ih =>
      cases hv : d.isVisible n with
      | true =>
        simp only [List.filter_cons, hv, if_true]
        exact .shown ((visible_iff d n).1 hv) ih
      | false =>
        simp only [List.filter_cons, hv, Bool.false_eq_true, if_false]
        exact .hidden (hidden_of d n hv) ih

/-- **C126** For every document whose part below the root is finite, the building of the render tree
ends. The render tree has exactly the nodes that are shown, each with exactly its children that are
shown, in the order of the document; its root is the root of the document, and if that is hidden there
is no tree and an error is reported. -/
theorem C126_render_tree (d : Doc) (root : Nat) (hf : Finite d root) :
    ∃ turns arena r, (∀ more, parse d root (turns + more) = some (arena, r)) ∧
      (∀ n kids, arena n = some kids ↔ Shown d root n ∧ Without d (d.children n) kids) ∧
      ((¬ Hidden d root → r = some root) ∧ (Hidden d root → r = none)) := by
  obtain ⟨k, a, hb, h⟩ := run_node d root hf [] [] (fun _ => none)
  refine ⟨k, a, res d root, ?_, ?_, ?_, ?_⟩
  · intro more
    unfold parse
    rw [h more]
    have : ∀ fuel s, s.stack = [] → loop d fuel s = some s := by
      intro fuel s hs
      cases fuel with
      | zero => rw [loop, hs]; rfl
      | succ f => rw [loop]; simp [hs]
    rw [this more _ rfl]
    rfl
  · intro n kids
    by_cases hs : Shown d root n
    · have := (hb n).1 ⟨root, by simp, hs⟩
      rw [this, without_iff]
      simp only [Option.some.injEq, hs, true_and]
      exact eq_comm
    · have := (hb n).2 (by
        rintro ⟨m, hm, h'⟩
        simp only [List.mem_singleton] at hm
        subst hm
        exact hs h')
      rw [this]
      simp [hs]
  · intro hh
    simp [res, (visible_iff d root).2 hh]
  · intro hh
    have : d.isVisible root = false := by
      cases hv : d.isVisible root with
      | false => rfl
      | true => exact absurd hh ((visible_iff d root).1 hv)
    simp [res, this]

theorem sample_finite : Finite sample.doc 0 := by
  refine .mk 0 fun c hc => ?_
  have h0 : sample.doc.children 0 = [1] := by decide
  rw [h0, List.mem_singleton] at hc
  subst hc
  refine .mk 1 fun c hc => ?_
  have h1 : sample.doc.children 1 = [2 ^ 62 + 4, 2, 2 ^ 62 + 5] := by decide
  rw [h1] at hc
  simp only [List.mem_cons, List.not_mem_nil, or_false] at hc
  rcases hc with rfl | rfl | rfl
  · refine .mk _ fun c hc => ?_
    have h : sample.doc.children (2 ^ 62 + 4) = [2 ^ 62 + 6] := by decide
    rw [h, List.mem_singleton] at hc
    subst hc
    refine .mk _ fun c hc => ?_
    have h : sample.doc.children (2 ^ 62 + 6) = [] := by decide
    rw [h] at hc; cases hc
  · refine .mk _ fun c hc => ?_
    have h : sample.doc.children 2 = [] := by decide
    rw [h] at hc; cases hc
  · refine .mk _ fun c hc => ?_
    have h : sample.doc.children (2 ^ 62 + 5) = [] := by decide
    rw [h] at hc; cases hc

/-- The hypothesis is met, and the tree has the generated text. -/
example : Shown sample.doc 0 (2 ^ 62 + 6) := by
  have hv : ∀ n, sample.doc.isVisible n = true → ¬ Hidden sample.doc n :=
    fun n h => (visible_iff _ n).1 h
  have h1 : Shown sample.doc 0 1 := .child (.root (hv 0 (by decide))) (by decide) (hv 1 (by decide))
  have h2 : Shown sample.doc 0 (2 ^ 62 + 4) := .child h1 (by decide) (hv _ (by decide))
  exact .child h2 (by decide) (hv _ (by decide))

/-- **C126** The part of a page below a node is finite with its generated content if the part of the
document below the node is. -/
theorem C126_finite (d : Real) (here : Nat → Prop) (ht : d.Tree here) (n : Nat) (hn : here n)
    (hf : Finite { d.doc with children := d.children } n) : Finite d.doc n := by
  induction hf with
  | mk n _ ih =>
    have leafText : ∀ b, Finite d.doc (GNode.text n b).id := by
      intro b
      refine .mk _ fun c hc => ?_
      obtain ⟨hp, hd⟩ := text_decode n b (ht.small n hn)
      have rt : roleIsText (if b then afterText else beforeText) = true := by cases b <;> rfl
      have : d.doc.children (GNode.text n b).id = [] := by
        show d.kids _ = []
        simp only [Real.kids, hp, if_true, hd, rt]
      rw [this] at hc; cases hc
    have box : ∀ b, (d.pseudo n b).isSome → Finite d.doc (GNode.box n b).id := by
      intro b hb
      obtain ⟨pb, hpb⟩ := Option.isSome_iff_exists.1 hb
      refine .mk _ fun c hc => ?_
      have e := (C125_tree d here ht (.box n b) ⟨hn, pb, hpb⟩).1
      have hc : c ∈ d.kids (GNode.box n b).id := hc
      rw [e] at hc
      obtain ⟨g, hg, rfl⟩ := List.mem_map.1 hc
      simp only [GNode.kids] at hg
      split at hg
      · simp only [List.mem_singleton] at hg; subst hg; exact leafText b
      · cases hg
    refine .mk n fun c hc => ?_
    have e := (C125_tree d here ht (.real n) hn).1
    have hc : c ∈ d.kids (GNode.real n).id := hc
    rw [e] at hc
    obtain ⟨g, hg, rfl⟩ := List.mem_map.1 hc
    simp only [GNode.kids, List.mem_append, List.mem_map] at hg
    rcases hg with (hg | ⟨m, hm, rfl⟩) | hg
    · split at hg
      · rename_i pb hpb
        simp only [List.mem_singleton] at hg; subst hg; exact box false (by simp [hpb])
      · cases hg
    · exact ih m hm (ht.closed n hn m hm)
    · split at hg
      · rename_i pb hpb
        simp only [List.mem_singleton] at hg; subst hg; exact box true (by simp [hpb])
      · cases hg

end Verif.RenderTree
