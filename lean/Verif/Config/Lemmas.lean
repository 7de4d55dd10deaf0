import Verif.Config.Spec
import Verif.StrLemmas
import Mathlib.Data.List.Nodup
import Mathlib.Data.List.Induction
import Mathlib.Tactic.Common

namespace Verif.Config
open Verif Verif.Map

variable {σ : Type}

/-! ## Construction -/

theorem new_snoc (l : List Info) (i : Info) (sto : σ) : new (l ++ [i]) sto = addInfo (new l sto) i := by
  simp [new]

theorem declared_snoc (l : List Info) (i : Info) (k : Str) :
    declared (l ++ [i]) k = if i.key = k then some i else declared l k := by
  simp [declared]

theorem new_infos (schema : List Info) (sto : σ) (k : Str) :
    look (new schema sto).infos k = declared schema k := by
  induction schema using List.reverseRecOn with
  | nil => rfl
  | append_singleton l i ih =>
    rw [new_snoc, declared_snoc]
    simp only [addInfo, look_put]
    by_cases h : k = i.key
    · subst h; simp
    · rw [if_neg (Ne.symm h), if_neg (Ne.symm h), ih]

theorem new_vals (schema : List Info) (sto : σ) (k : Str) :
    look (new schema sto).vals k = (declared schema k).map (·.default) := by
  induction schema using List.reverseRecOn with
  | nil => rfl
  | append_singleton l i ih =>
    rw [new_snoc, declared_snoc]
    simp only [addInfo, look_put]
    by_cases h : k = i.key
    · subst h; simp
    · rw [if_neg (Ne.symm h), if_neg (Ne.symm h), ih]

theorem new_rest (schema : List Info) (sto : σ) :
    (new schema sto).subs = [] ∧ (new schema sto).next = 0 ∧ (new schema sto).sto = sto := by
  induction schema using List.reverseRecOn with
  | nil => exact ⟨rfl, rfl, rfl⟩
  | append_singleton l i ih => rw [new_snoc]; exact ih

theorem declared_mem {schema : List Info} {k : Str} {i : Info} (h : declared schema k = some i) :
    i ∈ schema ∧ i.key = k := by
  induction schema using List.reverseRecOn with
  | nil => simp [declared] at h
  | append_singleton l j ih =>
    rw [declared_snoc] at h
    by_cases hk : j.key = k
    · rw [if_pos hk] at h; cases h; simp [hk]
    · rw [if_neg hk] at h
      have := ih h
      simp [this]

/-! ## One call -/

theorem read_known (A : Adapter σ) {s : Store σ} {k : Str} {v : Setting} (h : look s.vals k = some v) :
    read A s k = (some (some v), s) := by
  simp [read, h]

theorem read_infos (A : Adapter σ) (s : Store σ) (k : Str) : (read A s k).2.infos = s.infos := by
  unfold read; split
  · rfl
  · split
    · rfl
    · rfl
    · split <;> rfl

theorem read_keeps (A : Adapter σ) {s : Store σ} {k k' : Str} {v : Setting} (h : look s.vals k' = some v) :
    look (read A s k).2.vals k' = some v := by
  unfold read; split
  · exact h
  · split
    · exact h
    · next hn _ _ _ =>
      simp only [look_put]
      split
      · next hk => subst hk; rw [hn] at h; cases h
      · exact h
    · split <;> exact h

theorem read_subs (A : Adapter σ) (s : Store σ) (k : Str) :
    (read A s k).2.subs = s.subs ∧ (read A s k).2.next = s.next := by
  unfold read; split
  · exact ⟨rfl, rfl⟩
  · split
    · exact ⟨rfl, rfl⟩
    · exact ⟨rfl, rfl⟩
    · split <;> exact ⟨rfl, rfl⟩

/-- the code's acceptance test -/
def accepts (e : Ext) (i : Info) (v : Setting) : Bool :=
  decide (i.default.tag = v.tag) && allowed e i v

theorem setVal_cases (e : Ext) (A : Adapter σ) (s : Store σ) (k : Str) (v : Setting) :
    (look s.infos k = none ∧ setVal e A s k v = (s, .unknownKey, none)) ∨
    (∃ i r, look s.infos k = some i ∧ accepts e i v = false ∧ (r = .wrongType ∨ r = .notAllowed) ∧
      setVal e A s k v = (s, r, none)) ∨
    (∃ i, look s.infos k = some i ∧ accepts e i v = true ∧
      setVal e A s k v = ({ s with vals := put s.vals k v, sto := (A.save s.sto k v).1 },
        if (A.save s.sto k v).2 then .ok else .storageError,
        if (A.save s.sto k v).2 then (if differs e s k v then some v else none) else none)) := by
  unfold setVal
  cases hk : look s.infos k with
  | none => left; simp
  | some i =>
    right
    by_cases ht : i.default.tag = v.tag
    · cases hc : allowed e i v with
      | false =>
        left; refine ⟨i, .notAllowed, rfl, ?_, Or.inr rfl, ?_⟩
        · simp only [accepts, hc, Bool.and_false]
        · simp only [ht, hc, ne_eq, not_true_eq_false, if_false, if_true]
      | true =>
        right; refine ⟨i, rfl, ?_, ?_⟩
        · simp only [accepts, hc, ht, decide_true, Bool.and_true]
        · simp only [ht, hc, ne_eq, not_true_eq_false, if_false, Bool.true_eq_false]
          cases (A.save s.sto k v).2 <;> simp
    · left; refine ⟨i, .wrongType, rfl, ?_, Or.inl rfl, ?_⟩
      · simp [accepts, ht]
      · simp only [ne_eq, ht, not_false_eq_true, if_true]

theorem removeVal_cases (e : Ext) (A : Adapter σ) (s : Store σ) (k : Str) :
    (look s.infos k = none ∧ removeVal e A s k = (s, .unknownKey, none)) ∨
    (∃ i, look s.infos k = some i ∧ (A.erase s.sto k).2 = false ∧
      removeVal e A s k = ({ s with sto := (A.erase s.sto k).1 }, .storageError, none)) ∨
    (∃ i, look s.infos k = some i ∧ (A.erase s.sto k).2 = true ∧
      removeVal e A s k = ({ s with vals := put s.vals k i.default, sto := (A.erase s.sto k).1 }, .ok,
        if differs e s k i.default then some i.default else none)) := by
  unfold removeVal
  cases hk : look s.infos k with
  | none => left; simp
  | some i =>
    right
    cases hr : (A.erase s.sto k).2 with
    | false => left; exact ⟨i, rfl, rfl, by simp [hr]⟩
    | true => right; exact ⟨i, rfl, rfl, by simp [hr]⟩

/-! ## Types and constraints -/

theorem sameType_iff (a b : Setting) : a.tag = b.tag ↔ SameType a b := by
  cases a <;> cases b <;> simp [Setting.tag] <;> first | constructor | (intro h; cases h)

theorem number_eq (e : Ext) {v : Setting} (h : ∀ n, v ≠ .uint n) : v.toSint e = number e v := by
  cases v with
  | uint n => exact absurd rfl (h n)
  | string s => simp only [Setting.toSint, number, isBoolValue, List.map_cons, List.map_nil, decide_eq_true_eq]
  | _ => rfl

/-- With sane ranges the code's test is the specification. -/
theorem accepts_iff (e : Ext) {i : Info} {v : Setting} (hs : Sane i) (hv : v.InRange) :
    accepts e i v = true ↔ Conforms e i v := by
  simp only [accepts, Bool.and_eq_true, decide_eq_true_eq, Conforms, sameType_iff]
  refine and_congr_right fun ht => ?_
  unfold allowed
  cases hc : i.constraint with
  | none => simp
  | some c =>
    simp only [Option.some.injEq, forall_eq']
    cases c with
    | enum vs =>
      simp only [Constraint.allows, Satisfies, List.any_eq_true, decide_eq_true_eq]
      exact ⟨fun ⟨x, h1, h2⟩ => h2 ▸ h1, fun h => ⟨_, h, rfl⟩⟩
    | range rs =>
      simp only [Constraint.allows, Satisfies, List.any_eq_true, decide_eq_true_eq]
      by_cases hu : ∃ n, v = .uint n
      · obtain ⟨n, rfl⟩ := hu
        obtain ⟨m, hm⟩ : ∃ m, i.default = .uint m := by
          generalize i.default = d at ht
          cases ht; exact ⟨_, rfl⟩
        have hlo := hs m rs hm hc
        have hn : n < 2 ^ 64 := hv
        simp only [Setting.toSint, number, wrapUsize]
        constructor
        · rintro ⟨r, hr, h1, h2⟩
          refine ⟨r, hr, ?_⟩
          have := hlo r hr
          split at h1
          · rename_i hsm; rw [if_pos hsm] at h2; exact ⟨h1, h2⟩
          · omega
        · rintro ⟨r, hr, h1, h2⟩
          refine ⟨r, hr, ?_⟩
          by_cases hsm : n < 2 ^ 63
          · rw [if_pos hsm]; exact ⟨h1, h2⟩
          · exfalso
            have := hlo r hr; omega
      · rw [number_eq e (fun n h => hu ⟨n, h⟩)]

/-! ## Invariants over histories -/

/-- every known key has a value in memory satisfying `Q`, and what is known satisfies `P` -/
def Holds (Q : Info → Setting → Prop) (s : Store σ) : Prop :=
  ∀ (k : Str) (i : Info), look s.infos k = some i → ∃ v, look s.vals k = some v ∧ Q i v

theorem step_plain_infos (e : Ext) (A : Adapter σ) (s : Store σ) {o : Op σ} (h : o.Plain) :
    (step e A s o).1.infos = s.infos := by
  cases o with
  | get k => exact read_infos A s k
  | set k v =>
    simp only [step]
    rcases setVal_cases e A s k v with ⟨_, h⟩ | ⟨_, _, _, _, _, h⟩ | ⟨_, _, _, h⟩ <;> rw [h]
  | remove k =>
    simp only [step]
    rcases removeVal_cases e A s k with ⟨_, h⟩ | ⟨_, _, _, h⟩ | ⟨_, _, _, h⟩ <;> rw [h]
  | subscribe p => rfl
  | unsubscribe p => rfl
  | setStorage _ => exact absurd h id
  | merge _ _ => exact absurd h id

theorem run_plain_infos (e : Ext) (A : Adapter σ) (ops : List (Op σ)) (s : Store σ) (h : ∀ o ∈ ops, o.Plain) :
    (run e A s ops).1.infos = s.infos := by
  induction ops generalizing s with
  | nil => rfl
  | cons o r ih =>
    simp only [run]
    rw [ih _ (fun x hx => h x (by simp [hx])), step_plain_infos e A s (h o (by simp))]

/-- One plain call keeps `Holds Q` if accepted values and defaults satisfy `Q`. -/
theorem step_holds (e : Ext) (A : Adapter σ) {Q : Info → Setting → Prop} {s : Store σ} {o : Op σ}
    (hs : Holds Q s) (hp : o.Plain)
    (ha : ∀ k v i, o = .set k v → look s.infos k = some i → accepts e i v = true → Q i v)
    (hd : ∀ (k : Str) (i : Info), look s.infos k = some i → Q i i.default) :
    Holds Q (step e A s o).1 := by
  intro k i hi
  rw [step_plain_infos e A s hp] at hi
  obtain ⟨v, hv, hq⟩ := hs k i hi
  cases o with
  | get k' => exact ⟨v, read_keeps A hv, hq⟩
  | set k' v' =>
    simp only [step]
    rcases setVal_cases e A s k' v' with ⟨_, h⟩ | ⟨_, _, _, _, _, h⟩ | ⟨j, hj, hacc, h⟩
    · rw [h]; exact ⟨v, hv, hq⟩
    · rw [h]; exact ⟨v, hv, hq⟩
    · rw [h]; simp only [look_put]
      by_cases hk : k = k'
      · subst hk
        rw [hj] at hi; cases hi
        exact ⟨v', by simp, ha k v' i rfl hj hacc⟩
      · exact ⟨v, by rw [if_neg (Ne.symm hk)]; exact hv, hq⟩
  | remove k' =>
    simp only [step]
    rcases removeVal_cases e A s k' with ⟨_, h⟩ | ⟨j, hj, hacc, h⟩ | ⟨j, hj, hacc, h⟩
    · rw [h]; exact ⟨v, hv, hq⟩
    · rw [h]; exact ⟨v, hv, hq⟩
    · rw [h]; simp only [look_put]
      by_cases hk : k = k'
      · subst hk
        rw [hj] at hi; cases hi
        exact ⟨i.default, by simp, hd k i hj⟩
      · exact ⟨v, by rw [if_neg (Ne.symm hk)]; exact hv, hq⟩
  | subscribe p => exact ⟨v, hv, hq⟩
  | unsubscribe p => exact ⟨v, hv, hq⟩
  | setStorage _ => exact absurd hp id
  | merge _ _ => exact absurd hp id

theorem run_append (e : Ext) (A : Adapter σ) (a b : List (Op σ)) (s : Store σ) :
    run e A s (a ++ b) = ((run e A (run e A s a).1 b).1, (run e A s a).2 ++ (run e A (run e A s a).1 b).2) := by
  induction a generalizing s with
  | nil => simp [run]
  | cons o r ih => simp only [List.cons_append, run, ih]

theorem run_snoc (e : Ext) (A : Adapter σ) (a : List (Op σ)) (o : Op σ) (s : Store σ) :
    run e A s (a ++ [o]) = ((step e A (run e A s a).1 o).1,
      (run e A s a).2 ++ [(o, (step e A (run e A s a).1 o).2)]) := by
  rw [run_append]; rfl

theorem new_holds (e : Ext) {schema : List Info} (h : SchemaOk e schema) (sto : σ) :
    Holds (Conforms e) (new schema sto) := by
  intro k i hi
  rw [new_infos] at hi
  exact ⟨i.default, by rw [new_vals, hi]; rfl, (h i (declared_mem hi).1).1⟩

theorem run_holds (e : Ext) (A : Adapter σ) {schema : List Info} (h : SchemaOk e schema) (sto : σ)
    (ops : List (Op σ)) (hp : ∀ o ∈ ops, o.Plain ∧ o.Fits) :
    Holds (Conforms e) (run e A (new schema sto) ops).1 := by
  induction ops using List.reverseRecOn with
  | nil => exact new_holds e h sto
  | append_singleton l o ih =>
    rw [run_snoc]
    have hl : ∀ o ∈ l, o.Plain ∧ o.Fits := fun x hx => hp x (by simp [hx])
    have hinf := run_plain_infos e A l (new schema sto) (fun o ho => (hl o ho).1)
    refine step_holds e A (ih hl) (hp o (by simp)).1 ?_ ?_
    · intro k v i ho hi hacc
      rw [hinf, new_infos] at hi
      subst ho
      have hf : v.InRange := (hp (.set k v) (by simp)).2
      exact (accepts_iff e (h i (declared_mem hi).1).2 hf).1 hacc
    · intro k i hi
      rw [hinf, new_infos] at hi
      exact (h i (declared_mem hi).1).1

/-! ## Last value -/

theorem lastVal_snoc (k : Str) (d : Setting) (t : List (Op σ × Out)) (x : Op σ × Out) :
    lastVal k d (t ++ [x]) = lastStep k d (lastVal k d t) x := by
  simp only [lastVal, List.foldl_append, List.foldl_cons, List.foldl_nil]

theorem run_lastVal (e : Ext) (A : Adapter σ) (schema : List Info) (sto : σ) (ops : List (Op σ)) (k : Str)
    (i : Info) (hi : declared schema k = some i) (hp : ∀ o ∈ ops, o.Plain)
    (hok : ∀ x ∈ (run e A (new schema sto) ops).2, ∀ v, x.1 = .set k v → x.2.res ≠ .storageError) :
    look (run e A (new schema sto) ops).1.vals k =
      some (lastVal k i.default (run e A (new schema sto) ops).2) := by
  induction ops using List.reverseRecOn with
  | nil => simp only [run, lastVal, List.foldl_nil, new_vals, hi]; rfl
  | append_singleton l o ih =>
    have hl : ∀ o ∈ l, o.Plain := fun x hx => hp x (by simp [hx])
    have hinf := run_plain_infos e A l (new schema sto) hl
    have ho := hp o (by simp)
    rw [run_snoc] at hok ⊢
    have ih := ih hl (fun x hx => hok x (by simp [hx]))
    have hlast := hok (o, (step e A (run e A (new schema sto) l).1 o).2) (by simp)
    clear hok
    generalize run e A (new schema sto) l = S at *
    rw [lastVal_snoc]
    have hik : look S.1.infos k = some i := by rw [hinf, new_infos, hi]
    cases o with
    | get k' => exact read_keeps A ih
    | subscribe p => exact ih
    | unsubscribe p => exact ih
    | setStorage _ => exact absurd ho id
    | merge _ _ => exact absurd ho id
    | set k' v =>
      simp only [step, lastStep] at hlast ⊢
      rcases setVal_cases e A S.1 k' v with ⟨hn, h⟩ | ⟨j, r, hn, _, hr, h⟩ | ⟨j, hj, hacc, h⟩
      · simp only [h]; simpa using ih
      · simp only [h]; rw [if_neg]
        · exact ih
        · rintro ⟨_, h2⟩; rcases hr with hr | hr <;> rw [hr] at h2 <;> cases h2
      · simp only [h, look_put] at hlast ⊢
        by_cases hk : k' = k
        · subst hk
          have := hlast v rfl
          cases hsv : (A.save S.1.sto k' v).2 with
          | false => simp [hsv] at this
          | true => simp
        · rw [if_neg hk, if_neg (fun h => hk h.1)]; exact ih
    | remove k' =>
      simp only [step, lastStep]
      rcases removeVal_cases e A S.1 k' with ⟨hn, h⟩ | ⟨j, hj, _, h⟩ | ⟨j, hj, _, h⟩
      · simp only [h]; simpa using ih
      · simp only [h]; simpa using ih
      · simp only [h, look_put]
        by_cases hk : k' = k
        · subst hk; rw [hik] at hj; cases hj; simp
        · rw [if_neg hk, if_neg (fun h => hk h.1)]; exact ih

/-! ## Merging -/

theorem absorb_known (ns : Str) (entries : List (Info × Setting)) (acc : Store σ × Nat) (k : Str) (i : Info)
    (hk : look acc.1.infos k = some i) :
    look (entries.foldl (absorbOne ns) acc).1.infos k = some i ∧
    look (entries.foldl (absorbOne ns) acc).1.vals k = look acc.1.vals k := by
  induction entries generalizing acc with
  | nil => exact ⟨hk, rfl⟩
  | cons en r ih =>
    rw [List.foldl_cons]
    by_cases hex : (look acc.1.infos (mergedKey ns en.1.key)).isSome = true
    · have : absorbOne ns acc en = acc := by simp only [absorbOne, hex, if_true]
      rw [this]; exact ih acc hk
    · have hne : mergedKey ns en.1.key ≠ k := by rintro rfl; rw [hk] at hex; simp at hex
      have h1 : look (absorbOne ns acc en).1.infos k = some i := by
        simp only [absorbOne, if_neg hex, look_put, if_neg hne, hk]
      have h2 : look (absorbOne ns acc en).1.vals k = look acc.1.vals k := by
        simp only [absorbOne, if_neg hex, look_put, if_neg hne]
      rw [← h2]; exact ih _ h1

theorem absorb_other (ns : Str) (entries : List (Info × Setting)) (acc : Store σ × Nat) (k : Str)
    (hk : ∀ en ∈ entries, mergedKey ns en.1.key ≠ k) :
    look (entries.foldl (absorbOne ns) acc).1.infos k = look acc.1.infos k ∧
    look (entries.foldl (absorbOne ns) acc).1.vals k = look acc.1.vals k := by
  induction entries generalizing acc with
  | nil => exact ⟨rfl, rfl⟩
  | cons en r ih =>
    rw [List.foldl_cons]
    have hne := hk en (by simp)
    have := ih (absorbOne ns acc en) (fun x hx => hk x (by simp [hx]))
    rw [this.1, this.2]
    simp only [absorbOne]
    split
    · exact ⟨rfl, rfl⟩
    · simp only [look_put, if_neg hne, and_self]

theorem absorb_new (ns : Str) (entries : List (Info × Setting)) (acc : Store σ × Nat) (en : Info × Setting)
    (hmem : en ∈ entries) (hu : ∀ x ∈ entries, mergedKey ns x.1.key = mergedKey ns en.1.key → x = en)
    (hk : look acc.1.infos (mergedKey ns en.1.key) = none) :
    look (entries.foldl (absorbOne ns) acc).1.infos (mergedKey ns en.1.key) =
      some { en.1 with key := mergedKey ns en.1.key } ∧
    look (entries.foldl (absorbOne ns) acc).1.vals (mergedKey ns en.1.key) = some en.2 := by
  induction entries generalizing acc with
  | nil => simp at hmem
  | cons x r ih =>
    rw [List.foldl_cons]
    by_cases hx : mergedKey ns x.1.key = mergedKey ns en.1.key
    · have hxe := hu x (by simp) hx
      subst hxe
      have h1 : look (absorbOne ns acc x).1.infos (mergedKey ns x.1.key) =
          some { x.1 with key := mergedKey ns x.1.key } := by
        simp [absorbOne, hk, look_put]
      have h2 : look (absorbOne ns acc x).1.vals (mergedKey ns x.1.key) = some x.2 := by
        simp [absorbOne, hk, look_put]
      have := absorb_known ns r (absorbOne ns acc x) _ _ h1
      rw [this.1, this.2]; exact ⟨rfl, h2⟩
    · have hr : en ∈ r := by
        rcases List.mem_cons.1 hmem with h | h
        · exact absurd (by rw [h]) hx
        · exact h
      refine ih _ hr (fun y hy => hu y (by simp [hy])) ?_
      simp only [absorbOne]
      split
      · exact hk
      · simp only [look_put, if_neg hx, hk]

theorem mergedKey_inj (ns a b : Str) (h : mergedKey ns a = mergedKey ns b) : a = b := by
  unfold mergedKey at h
  split at h
  · exact h
  · simpa using h

theorem absorb_mono (ns : Str) (entries : List (Info × Setting)) (acc : Store σ × Nat) (s : Store σ)
    (Q : Info → Setting → Prop) (hQ : ∀ i k v, Q i v → Q { i with key := k } v)
    (h : Holds Q acc.1) (he : ∀ en ∈ entries, Q en.1 en.2) :
    Holds Q (entries.foldl (absorbOne ns) acc).1 := by
  induction entries generalizing acc with
  | nil => exact h
  | cons en r ih =>
    rw [List.foldl_cons]
    refine ih _ ?_ (fun x hx => he x (by simp [hx]))
    simp only [absorbOne]
    split
    · exact h
    · intro k i hi
      simp only [look_put] at hi ⊢
      by_cases hk : mergedKey ns en.1.key = k
      · rw [if_pos hk] at hi ⊢
        cases hi
        exact ⟨_, rfl, hQ _ _ _ (he en (by simp))⟩
      · rw [if_neg hk] at hi ⊢; exact h k i hi

/-! ## Subscriptions -/

theorem absorb_subs (ns : Str) (entries : List (Info × Setting)) (acc : Store σ × Nat) :
    (entries.foldl (absorbOne ns) acc).1.subs = acc.1.subs ∧
    (entries.foldl (absorbOne ns) acc).1.next = acc.1.next := by
  induction entries generalizing acc with
  | nil => exact ⟨rfl, rfl⟩
  | cons en r ih =>
    rw [List.foldl_cons, (ih _).1, (ih _).2]
    simp only [absorbOne]; split <;> exact ⟨rfl, rfl⟩

theorem step_subs (e : Ext) (A : Adapter σ) (s : Store σ) (o : Op σ) (h1 : ∀ p, o ≠ .subscribe p)
    (h2 : ∀ id, o ≠ .unsubscribe id) :
    (step e A s o).1.subs = s.subs ∧ (step e A s o).1.next = s.next := by
  cases o with
  | get k => exact read_subs A s k
  | set k v =>
    simp only [step]
    rcases setVal_cases e A s k v with ⟨_, h⟩ | ⟨_, _, _, _, _, h⟩ | ⟨_, _, _, h⟩ <;> rw [h] <;> exact ⟨rfl, rfl⟩
  | remove k =>
    simp only [step]
    rcases removeVal_cases e A s k with ⟨_, h⟩ | ⟨_, _, _, h⟩ | ⟨_, _, _, h⟩ <;> rw [h] <;> exact ⟨rfl, rfl⟩
  | subscribe p => exact absurd rfl (h1 p)
  | unsubscribe p => exact absurd rfl (h2 p)
  | setStorage m =>
    simp only [step, Config.setStorage]
    split <;> exact ⟨rfl, rfl⟩
  | merge es ns => exact absorb_subs _ es (s, 0)

theorem countSubs_append (a b : List (Op σ)) : countSubs (a ++ b) = countSubs a + countSubs b := by
  induction a with
  | nil => simp [countSubs]
  | cons o r ih => cases o <;> simp only [List.cons_append, countSubs, ih] <;> omega

theorem live_snoc (hist : List (Op σ)) (o : Op σ) (id : Nat) (pat : Str) :
    Live (hist ++ [o]) id pat ↔
      (Live hist id pat ∧ o ≠ .unsubscribe id) ∨ (o = .subscribe pat ∧ id = countSubs hist) := by
  constructor
  · rintro ⟨pre, post, h, hid, hpost⟩
    induction post using List.reverseRecOn with
    | nil =>
      right
      have := List.append_inj' h rfl
      obtain ⟨h1, h2⟩ := this
      subst h1
      simp at h2
      exact ⟨h2, hid⟩
    | append_singleton q x _ =>
      left
      have h' : hist ++ [o] = (pre ++ Op.subscribe pat :: q) ++ [x] := by rw [h]; simp
      have := List.append_inj' h' rfl
      obtain ⟨h1, h2⟩ := this
      simp at h2
      subst h2
      exact ⟨⟨pre, q, h1, hid, fun y hy => hpost y (by simp [hy])⟩, hpost _ (by simp)⟩
  · rintro (⟨⟨pre, post, h, hid, hpost⟩, ho⟩ | ⟨ho, hid⟩)
    · refine ⟨pre, post ++ [o], by rw [h]; simp, hid, ?_⟩
      intro y hy
      rcases List.mem_append.1 hy with hy | hy
      · exact hpost y hy
      · simp at hy; rw [hy]; exact ho
    · exact ⟨hist, [], by rw [ho], hid, by simp⟩

/-- what is true of the subscriptions after a history -/
structure SubsOk (hist : List (Op σ)) (s : Store σ) : Prop where
  next : s.next = countSubs hist
  mem : ∀ id pat, (id, pat) ∈ s.subs ↔ Live hist id pat
  nodup : (s.subs.map (·.1)).Nodup
  lt : ∀ b ∈ s.subs, b.1 < s.next

theorem run_subs (e : Ext) (A : Adapter σ) (schema : List Info) (sto : σ) (hist : List (Op σ)) :
    SubsOk hist (run e A (new schema sto) hist).1 := by
  induction hist using List.reverseRecOn with
  | nil =>
    obtain ⟨h1, h2, _⟩ := new_rest schema sto
    refine ⟨by simp [run, h2, countSubs], ?_, by simp [run, h1], by simp [run, h1]⟩
    intro id pat
    simp only [run, h1, List.not_mem_nil, false_iff]
    rintro ⟨pre, post, h, _⟩
    simp at h
  | append_singleton l o ih =>
    rw [run_snoc]
    generalize run e A (new schema sto) l = S at *
    simp only
    by_cases hs : ∃ p, o = .subscribe p
    · obtain ⟨p, rfl⟩ := hs
      simp only [step, Config.subscribe]
      refine ⟨?_, ?_, ?_, ?_⟩
      · rw [countSubs_append, ih.next]; rfl
      · intro id pat
        simp only [List.mem_append, List.mem_singleton, live_snoc, ih.mem, ih.next]
        constructor
        · rintro (h | h)
          · exact Or.inl ⟨h, by simp⟩
          · cases h; exact Or.inr ⟨rfl, rfl⟩
        · rintro (h | ⟨h1, h2⟩)
          · exact Or.inl h.1
          · cases h1; rw [h2]; exact Or.inr rfl
      · rw [List.map_append, List.nodup_append]
        refine ⟨ih.nodup, by simp, ?_⟩
        intro a ha b hb
        simp at hb
        subst hb
        obtain ⟨x, hx, rfl⟩ := List.mem_map.1 ha
        exact Nat.ne_of_lt (ih.lt x hx)
      · intro b hb
        rcases List.mem_append.1 hb with hb | hb
        · exact Nat.lt_succ_of_lt (ih.lt b hb)
        · simp at hb; subst hb; exact Nat.lt_succ_self _
    · by_cases hu : ∃ id, o = .unsubscribe id
      · obtain ⟨id, rfl⟩ := hu
        simp only [step, Config.unsubscribe]
        refine ⟨?_, ?_, ?_, ?_⟩
        · rw [countSubs_append, ih.next]; rfl
        · intro id' pat
          simp only [List.mem_filter, decide_eq_true_eq, live_snoc, ih.mem, ne_eq, Op.unsubscribe.injEq,
            reduceCtorEq, false_and, or_false]
          exact and_congr_right fun _ => ⟨fun h h' => h h'.symm, fun h h' => h h'.symm⟩
        · exact ih.nodup.sublist (List.Sublist.map _ List.filter_sublist)
        · intro b hb; exact ih.lt b (List.mem_filter.1 hb).1
      · have hs' : ∀ p, o ≠ .subscribe p := fun p h => hs ⟨p, h⟩
        have hu' : ∀ p, o ≠ .unsubscribe p := fun p h => hu ⟨p, h⟩
        obtain ⟨h1, h2⟩ := step_subs e A S.1 o hs' hu'
        refine ⟨?_, ?_, by rw [h1]; exact ih.nodup, by rw [h1, h2]; exact ih.lt⟩
        · rw [h2, ih.next, countSubs_append]
          cases o <;> first | rfl | exact absurd rfl (hs' _)
        · intro id pat
          rw [h1, ih.mem, live_snoc]
          constructor
          · intro h; exact Or.inl ⟨h, hu' id⟩
          · rintro (h | h)
            · exact h.1
            · exact absurd h.1 (hs' pat)

/-! ## Known keys always have a value -/

theorem step_holds_true (e : Ext) (A : Adapter σ) {s : Store σ} (o : Op σ) (hs : Holds (fun _ _ => True) s) :
    Holds (fun _ _ => True) (step e A s o).1 := by
  cases o with
  | setStorage m =>
    intro k i hi
    simp only [step, Config.setStorage] at hi ⊢
    cases hall : A.all m with
    | none => rw [hall] at hi; simp only at hi ⊢; exact hs k i hi
    | some l =>
      rw [hall] at hi; simp only at hi ⊢
      obtain ⟨v, hv, _⟩ := hs k i hi
      clear hall hi
      generalize s.vals = m at hv ⊢
      induction l generalizing m v with
      | nil => exact ⟨v, hv, trivial⟩
      | cons x r ih =>
        rw [List.foldl_cons]
        by_cases hk : x.1 = k
        · exact ih x.2 _ (by rw [look_put, if_pos hk])
        · exact ih v _ (by rw [look_put, if_neg hk]; exact hv)
  | merge es ns => exact absorb_mono _ es (s, 0) s _ (fun _ _ _ _ => trivial) hs (fun _ _ => trivial)
  | _ => exact step_holds e A hs trivial (fun _ _ _ _ _ _ => trivial) (fun _ _ _ => trivial)

theorem run_holds_true (e : Ext) (A : Adapter σ) (schema : List Info) (sto : σ) (hist : List (Op σ)) :
    Holds (fun _ _ => True) (run e A (new schema sto) hist).1 := by
  induction hist using List.reverseRecOn with
  | nil =>
    intro k i hi
    simp only [run] at hi ⊢
    rw [new_infos] at hi
    exact ⟨i.default, by rw [new_vals, hi]; rfl, trivial⟩
  | append_singleton l o ih => rw [run_snoc]; exact step_holds_true e A o ih

/-- declarations are stored under their own key, and the key is listed -/
def Listed (s : Store σ) : Prop := ∀ (k : Str) (i : Info), look s.infos k = some i → i.key = k ∧ k ∈ s.keys

theorem step_keys (e : Ext) (A : Adapter σ) (s : Store σ) (o : Op σ) (h : ∀ es ns, o ≠ .merge es ns) :
    (step e A s o).1.keys = s.keys ∧ (step e A s o).1.infos = s.infos := by
  cases o with
  | get k =>
    simp only [step]
    unfold read; split
    · exact ⟨rfl, rfl⟩
    · split
      · exact ⟨rfl, rfl⟩
      · exact ⟨rfl, rfl⟩
      · split <;> exact ⟨rfl, rfl⟩
  | set k v =>
    simp only [step]
    rcases setVal_cases e A s k v with ⟨_, h⟩ | ⟨_, _, _, _, _, h⟩ | ⟨_, _, _, h⟩ <;> rw [h] <;> exact ⟨rfl, rfl⟩
  | remove k =>
    simp only [step]
    rcases removeVal_cases e A s k with ⟨_, h⟩ | ⟨_, _, _, h⟩ | ⟨_, _, _, h⟩ <;> rw [h] <;> exact ⟨rfl, rfl⟩
  | subscribe p => exact ⟨rfl, rfl⟩
  | unsubscribe p => exact ⟨rfl, rfl⟩
  | setStorage m =>
    simp only [step, Config.setStorage]
    split <;> exact ⟨rfl, rfl⟩
  | merge es ns => exact absurd rfl (h es ns)

theorem absorb_listed (ns : Str) (entries : List (Info × Setting)) (acc : Store σ × Nat) (h : Listed acc.1) :
    Listed (entries.foldl (absorbOne ns) acc).1 := by
  induction entries generalizing acc with
  | nil => exact h
  | cons en r ih =>
    rw [List.foldl_cons]
    refine ih _ ?_
    simp only [absorbOne]
    split
    · exact h
    · intro k i hi
      simp only [look_put] at hi
      split at hi
      · next hk => cases hi; exact ⟨hk, by simp [hk]⟩
      · exact ⟨(h k i hi).1, by simp [(h k i hi).2]⟩

theorem run_listed (e : Ext) (A : Adapter σ) (schema : List Info) (sto : σ) (hist : List (Op σ)) :
    Listed (run e A (new schema sto) hist).1 := by
  induction hist using List.reverseRecOn with
  | nil =>
    simp only [run]
    induction schema using List.reverseRecOn with
    | nil => intro k i hi; simp [new, look] at hi
    | append_singleton l j ih =>
      rw [new_snoc]
      intro k i hi
      simp only [addInfo, look_put] at hi ⊢
      split at hi
      · next hk => cases hi; exact ⟨hk, by simp [hk]⟩
      · exact ⟨(ih k i hi).1, by simp [(ih k i hi).2]⟩
  | append_singleton l o ih =>
    rw [run_snoc]
    by_cases hm : ∃ es ns, o = .merge es ns
    · obtain ⟨es, ns, rfl⟩ := hm
      exact absorb_listed _ es (_, 0) ih
    · obtain ⟨h1, h2⟩ := step_keys e A (run e A (new schema sto) l).1 o (fun es ns h => hm ⟨es, ns, h⟩)
      intro k i hi
      rw [h2] at hi
      simp only [h1]
      exact ih k i hi

end Verif.Config
