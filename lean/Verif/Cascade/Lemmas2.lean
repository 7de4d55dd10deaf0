import Verif.Cascade.Lemmas

/-!
# The whole cascade
-/
set_option linter.unusedVariables false
set_option linter.unusedSimpArgs false
namespace Verif.Cascade
open Verif Verif.Map Verif.Select

/-- the assignments made by longhand declarations -/
def directs (l : List (Bool × Decl)) : List Decl := (l.filter fun x => !x.1).map (·.2)
/-- those made by shorthands -/
def vias (l : List (Bool × Decl)) : List Decl := (l.filter fun x => x.1).map (·.2)

theorem directs_append (a b : List (Bool × Decl)) : directs (a ++ b) = directs a ++ directs b := by simp [directs]
theorem vias_append (a b : List (Bool × Decl)) : vias (a ++ b) = vias a ++ vias b := by simp [vias]

theorem directs_false {α : Type} (l : List α) (f : α → Decl) : directs (l.map fun x => (false, f x)) = l.map f := by
  induction l with
  | nil => rfl
  | cons x r ih => simpa [directs] using ih

theorem directs_true {α : Type} (l : List α) (f : α → Decl) : directs (l.map fun x => (true, f x)) = [] := by
  induction l with
  | nil => rfl
  | cons x r ih => simpa [directs] using ih

theorem vias_true {α : Type} (l : List α) (f : α → Decl) : vias (l.map fun x => (true, f x)) = l.map f := by
  induction l with
  | nil => rfl
  | cons x r ih => simpa [vias] using ih

theorem vias_false {α : Type} (l : List α) (f : α → Decl) : vias (l.map fun x => (false, f x)) = [] := by
  induction l with
  | nil => rfl
  | cons x r ih => simpa [vias] using ih

/-- the declarations recorded for a property -/
def got (props : List (Str × List Decl)) (p : Str) : List Decl := (look props p).getD []

theorem got_push (props : List (Str × List Decl)) (n p : Str) (d : Decl) :
    got (pushDecl props n d) p = got props p ++ (if n = p then [d] else []) := by
  unfold got pushDecl
  rw [look_put]
  by_cases h : n = p
  · subst h; simp
  · simp [h]

theorem got_pushAll (l : List (Str × Val)) (f : Val → Decl) (p : Str) : ∀ (props : List (Str × List Decl)),
    got (l.foldl (fun ps r => pushDecl ps r.1 (f r.2)) props) p =
      got props p ++ (l.filter fun s => s.1 = p).map fun s => f s.2 := by
  induction l with
  | nil => intro props; simp
  | cons e r ih =>
    intro props
    rw [List.foldl_cons, ih, got_push, List.filter_cons]
    by_cases h : e.1 = p <;> simp [h]

theorem got_applyFix (l : List (Str × Decl)) (p : Str) (hn : Nk l) : ∀ (props : List (Str × List Decl)),
    got (l.foldl (fun ps e => pushDecl ps e.1 e.2) props) p = got props p ++ (look l p).toList := by
  induction l with
  | nil => intro props; simp [look]
  | cons e r ih =>
    intro props
    obtain ⟨a, d⟩ := e
    simp only [Nk, List.map_cons, List.nodup_cons] at hn
    rw [List.foldl_cons, ih hn.2, got_push]
    simp only [look]
    by_cases h : a = p
    · subst h
      have : look r a = Option.none := by
        cases hx : look r a with
        | none => rfl
        | some _ => exact absurd ((mem_keys_iff r a).2 (by simp [hx])) hn.1
      simp [this]
    · simp [h]

theorem filter_look (l : List (Str × Val)) (p : Str) (hn : Nk l) (f : Val → Decl) :
    ((l.filter fun s => s.1 = p).map fun s => f s.2) = ((look l p).map f).toList := by
  induction l with
  | nil => simp [look]
  | cons e r ih =>
    obtain ⟨a, d⟩ := e
    simp only [Nk, List.map_cons, List.nodup_cons] at hn
    rw [List.filter_cons]
    simp only [look]
    by_cases h : a = p
    · subst h
      have : look r a = Option.none := by
        cases hx : look r a with
        | none => rfl
        | some _ => exact absurd ((mem_keys_iff r a).2 (by simp [hx])) hn.1
      have i := ih hn.2
      rw [this] at i
      simp at i
      simpa using i
    · simp only [h, decide_false, if_false]
      exact ih hn.2

/-- what the two collections hold after the declarations `l` -/
structure Held (e : Env) (l : List Applied) (s : St) : Prop where
  direct : ∀ p, got s.props p = directs (assignments e p l)
  via : ∀ p, look s.fix.list p = maxLast (vias (assignments e p l)) Option.none
  nk : Nk s.fix.list
  flat : ∀ n, (look s.fix.list n).isSome = true → ∀ dn, e.defs n = some dn → dn.isShorthand = false

theorem fresh_prepare {defs : Defs} (hd : FlatDefs defs) {df : Definition} {a : Applied} {fl : FixList}
    (h : defs a.decl.property = some df) : Fresh df (a.prepare fl) := by
  cases df with
  | quad q =>
    have := hd.named _ q h
    simp [Fresh, cnt, Applied.prepare, FixList.reset, look_del, this]
  | plain _ => trivial
  | other _ => trivial

theorem declOf_prepare (a : Applied) (fl : FixList) (v : Val) : (a.prepare fl).declOf v = a.decl' v := rfl

theorem maxLast_snoc (l : List Decl) (d : Decl) : maxLast (l ++ [d]) Option.none = some (keep (maxLast l Option.none) d) := by
  rw [maxLast_append, maxLast_cons]; rfl

theorem assignments_snoc (e : Env) (p : Str) (l : List Applied) (a : Applied) :
    assignments e p (l ++ [a]) = assignments e p l ++ assigned e p a := by simp [assignments]

theorem held_step {e : Env} (hd : FlatDefs e.defs) {l : List Applied} {s : St} (a : Applied) (h : Held e l s)
    (hc : RejectsClean e (l ++ [a])) : Held e (l ++ [a]) (addDecl e s a) := by
  by_cases h1 : isCustom a.decl.property = true
  · have es : addDecl e s a = s := by simp [addDecl, h1]
    have ea : ∀ p, assigned e p a = [] := fun p => by simp [assigned, h1]
    rw [es]
    exact ⟨fun p => by rw [h.direct, assignments_snoc, ea]; simp, fun p => by rw [h.via, assignments_snoc, ea]; simp,
      h.nk, h.flat⟩
  by_cases h2 : a.decl.property = "content".toList
  · have es : addDecl e s a = { s with props := pushDecl s.props a.decl.property (a.decl' (e.prep a.decl.value)) } := by
      simp only [addDecl]; rw [if_neg h1, if_pos h2]
    have ea : ∀ p, assigned e p a = if a.decl.property = p then [(false, a.decl' (e.prep a.decl.value))] else [] :=
      fun p => by simp only [assigned]; rw [if_neg h1, if_pos h2]
    rw [es]
    refine ⟨fun p => ?_, fun p => ?_, h.nk, h.flat⟩
    · rw [assignments_snoc, directs_append, ← h.direct, got_push, ea]
      split <;> simp [directs]
    · rw [assignments_snoc, vias_append, ea, h.via]
      split <;> simp [vias]
  cases h3 : e.defs a.decl.property with
  | none =>
    have es : addDecl e s a =
        { s with props := pushDecl s.props a.decl.property (a.decl' (e.prep a.decl.value).unwrap) } := by
      simp only [addDecl]; rw [if_neg h1, if_neg h2, h3]
    have ea : ∀ p, assigned e p a =
        if a.decl.property = p then [(false, a.decl' (e.prep a.decl.value).unwrap)] else [] :=
      fun p => by simp only [assigned]; rw [if_neg h1, if_neg h2, h3]
    rw [es]
    refine ⟨fun p => ?_, fun p => ?_, h.nk, h.flat⟩
    · rw [assignments_snoc, directs_append, ← h.direct, got_push, ea]
      split <;> simp [directs]
    · rw [assignments_snoc, vias_append, ea, h.via]
      split <;> simp [vias]
  | some df =>
    have hfr : Fresh df (a.prepare s.fix) := fresh_prepare hd h3
    have hl : ∀ p, look (df.run (e.prep a.decl.value).slice (a.prepare s.fix)).2.list p = _ :=
      fun p => (run_look df (e.prep a.decl.value) _ hfr p).2.2
    have hv := (run_look df (e.prep a.decl.value) _ hfr []).1
    have hn := run_nk df (e.prep a.decl.value) _ hfr h.nk
    have flat' : ∀ n, (look (df.run (e.prep a.decl.value).slice (a.prepare s.fix)).2.list n).isSome = true →
        ∀ dn, e.defs n = some dn → dn.isShorthand = false := by
      intro n hs dn hdn
      rw [hl n] at hs
      cases hk : look (df.sets (e.prep a.decl.value)) n with
      | none => rw [hk] at hs; exact h.flat n hs dn hdn
      | some w => exact hd.flat _ df _ n w h3 (Map.mem_of_look hk) dn hdn
    by_cases hval : df.valid (e.prep a.decl.value)
    · have es : addDecl e s a = ⟨pushDecl s.props a.decl.property (a.decl' (e.prep a.decl.value).unwrap),
          (df.run (e.prep a.decl.value).slice (a.prepare s.fix)).2⟩ := by
        have : df.run (e.prep a.decl.value).slice (a.prepare s.fix) =
            (true, (df.run (e.prep a.decl.value).slice (a.prepare s.fix)).2) := Prod.ext (hv.2 hval) rfl
        simp only [addDecl]; rw [if_neg h1, if_neg h2, h3]; simp only []
        rw [this]
      have ea : ∀ p, assigned e p a =
          (if a.decl.property = p then [(false, a.decl' (e.prep a.decl.value).unwrap)] else []) ++
          ((df.sets (e.prep a.decl.value)).filter fun s => s.1 = p).map fun s => (true, a.decl' s.2) :=
        fun p => by
          simp only [assigned]; rw [if_neg h1, if_neg h2, h3]; simp only []
          rw [if_pos hval]
      rw [es]
      refine ⟨fun p => ?_, fun p => ?_, hn, flat'⟩
      · rw [assignments_snoc, directs_append, ← h.direct, got_push, ea, directs_append, directs_true]
        split <;> simp [directs]
      · rw [assignments_snoc, vias_append, ea, vias_append, vias_true, filter_look _ _ (nk_sets _ _)]
        have : vias (if a.decl.property = p then [(false, a.decl' (e.prep a.decl.value).unwrap)] else []) = [] := by
          split <;> simp [vias]
        rw [this, List.nil_append]
        show look (df.run (e.prep a.decl.value).slice (a.prepare s.fix)).2.list p = _
        rw [hl p]
        cases look (df.sets (e.prep a.decl.value)) p with
        | none => simpa [Applied.prepare, FixList.reset] using h.via p
        | some w =>
          simp only [Option.map_some, Option.toList_some]
          rw [maxLast_snoc, ← h.via p]
          rfl
    · have es : addDecl e s a =
          ⟨(recovered e a (e.prep a.decl.value)).foldl (fun ps r => pushDecl ps r.1 (a.decl' r.2)) s.props,
          (df.run (e.prep a.decl.value).slice (a.prepare s.fix)).2⟩ := by
        have : df.run (e.prep a.decl.value).slice (a.prepare s.fix) =
            (false, (df.run (e.prep a.decl.value).slice (a.prepare s.fix)).2) :=
          Prod.ext (by simpa using fun h => hval (hv.1 h)) rfl
        simp only [addDecl]; rw [if_neg h1, if_neg h2, h3]; simp only []
        rw [this]
      have ea : ∀ p, assigned e p a =
          ((recovered e a (e.prep a.decl.value)).filter fun s => s.1 = p).map fun s => (false, a.decl' s.2) :=
        fun p => by
          simp only [assigned]; rw [if_neg h1, if_neg h2, h3]; simp only []
          rw [if_neg hval]
      rw [es]
      have hs := hc a (by simp) df h3 hval
      refine ⟨fun p => ?_, fun p => ?_, hn, flat'⟩
      · rw [assignments_snoc, directs_append, ← h.direct, got_pushAll, ea, directs_false]
      · rw [assignments_snoc, vias_append, ea, vias_false, List.append_nil]
        show look (df.run (e.prep a.decl.value).slice (a.prepare s.fix)).2.list p = _
        rw [hl p, hs]
        simpa [look, Applied.prepare, FixList.reset] using h.via p

theorem held_all {e : Env} (hd : FlatDefs e.defs) (l : List Applied) (hc : RejectsClean e l) :
    Held e l (l.foldl (addDecl e) ⟨[], .new⟩) := by
  induction l using List.reverseRecOn with
  | nil => exact ⟨fun p => rfl, fun p => rfl, by simp [FixList.new, Nk], by simp [FixList.new, look]⟩
  | append_singleton r x ih =>
    rw [List.foldl_append]
    exact held_step hd x (ih fun a ha => hc a (by simp [ha])) hc

theorem nestedFrom_flat (defs : Defs) : ∀ (l : List (Str × Decl)) (s : FixList × Bool),
    (∀ n ∈ l.map (·.1), ∀ dn, defs n = some dn → dn.isShorthand = false) → nestedFrom defs l s = s
  | [], s, _ => rfl
  | (n, d) :: r, (fl, had), h => by
    have hr := nestedFrom_flat defs r (fl, had) (fun m hm => h m (by simp at hm ⊢; exact Or.inr hm))
    simp only [nestedFrom]
    cases hn : defs n with
    | none => simpa using hr
    | some dn => simpa [h n (by simp) dn hn] using hr

theorem resolveNested_flat (defs : Defs) (fuel : Nat) (fl : FixList)
    (h : ∀ n ∈ fl.list.map (·.1), ∀ dn, defs n = some dn → dn.isShorthand = false) :
    resolveNested defs fuel fl = fl := by
  cases fuel with
  | zero => rfl
  | succ f =>
    rw [resolveNested, nestedFrom_flat defs _ _ h]
    simp [FixList.new]

/-- moving the assignments by shorthands to the end does not change the winner if there are no late ties -/
theorem maxLast_move (l : List (Bool × Decl)) (h : NoLateTie l) :
    maxLast (directs l ++ vias l) Option.none = maxLast (l.map (·.2)) Option.none := by
  induction l using List.reverseRecOn with
  | nil => rfl
  | append_singleton r x ih =>
    have ihr := ih fun a d m e b he => h a d m e (b ++ [x]) (by simp [he])
    obtain ⟨f, d⟩ := x
    rw [directs_append, vias_append, List.map_append, maxLast_append (r.map _), ← ihr]
    cases f with
    | true =>
      have e1 : directs [(true, d)] = [] := rfl
      have e2 : vias [(true, d)] = [d] := rfl
      rw [e1, e2, List.append_nil, ← List.append_assoc, maxLast_append]
      rfl
    | false =>
      have e1 : directs [(false, d)] = [d] := rfl
      have e2 : vias [(false, d)] = [] := rfl
      rw [e1, e2, List.append_nil, maxLast_append, maxLast_append, maxLast_append, maxLast_acc (vias r),
        maxLast_acc (vias r) (maxLast (directs r) Option.none)]
      cases hv : maxLast (vias r) Option.none with
      | none => simp [join, maxLast]
      | some m =>
        have hm : ¬ Tied m d := by
          rcases maxLast_mem _ _ _ hv with hm | hm
          · obtain ⟨⟨f', d'⟩, hf, rfl⟩ := List.mem_map.1 hm
            have := List.mem_filter.1 hf
            obtain ⟨a, b, hab⟩ := List.append_of_mem this.1
            have hf' : f' = true := this.2
            subst hf'
            exact h a d' b d [] (by rw [hab])
          · cases hm
        have comm : keep (some m) d = keep (some d) m := by
          by_cases w : Weaker d m
          · rw [keep_some_of_w w, keep_some_of_nw (weaker_asymm w)]
          · rw [keep_some_of_nw w]
            have w' : Weaker m d := Classical.byContradiction fun h' => hm ⟨h', w⟩
            rw [keep_some_of_w w']
        simp only [List.map_cons, List.map_nil, maxLast_cons, maxLast, join]
        rw [keep_assoc, keep_assoc, comm]

theorem compute_wins {e : Env} (nest : Nat) (hd : FlatDefs e.defs) (l : List Applied) (hc : RejectsClean e l) (p : Str)
    (ht : NoLateTie (assignments e p l)) :
    cascaded (compute e nest l) p = maxLast ((assignments e p l).map (·.2)) Option.none := by
  have h := held_all hd l hc
  have hr := resolveNested_flat e.defs nest (l.foldl (addDecl e) ⟨[], .new⟩).fix
    (fun n hn => h.flat n ((mem_keys_iff _ n).1 hn))
  have : cascaded (compute e nest l) p = maxLast (got (compute e nest l) p) Option.none := rfl
  rw [this]
  have hg : got (compute e nest l) p = directs (assignments e p l) ++ (maxLast (vias (assignments e p l)) Option.none).toList := by
    simp only [compute]
    rw [hr, applyFix, got_applyFix _ _ h.nk, h.direct, h.via]
  rw [hg, ← maxLast_move _ ht, maxLast_append, maxLast_append,
    maxLast_acc (vias _) (maxLast (directs (assignments e p l)) Option.none)]
  cases maxLast (vias (assignments e p l)) Option.none with
  | none => rfl
  | some m => simp [maxLast_cons, maxLast, join]

end Verif.Cascade
