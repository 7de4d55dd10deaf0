import Verif.Config.Lemmas2

/-!
# C30–C34, C62: settings
-/
namespace Verif.Config
open Verif Verif.Map

variable {σ : Type}

/-- an instance of the external functions, for the examples -/
def demoExt : Ext where
  fdisp := natStr
  fparse := parseUsize
  fint n := n
  feq a b := decide (a = b)
  upper s := s
  wild p k := decide (p = ['*'] ∨ p = k)

/-- a schema for the examples: an unsigned number between 1 and 9, and a string -/
def demoSchema : List Info :=
  [⟨['n'], .uint 4, some (.range [(1, 9)])⟩, ⟨['s'], .string ['a'], some (.enum [['a'], ['b']])⟩,
   ⟨['f'], .bool true, none⟩]

theorem demoSchema_ok : SchemaOk demoExt demoSchema := by
  intro i hi
  simp only [demoSchema, List.mem_cons, List.not_mem_nil, or_false] at hi
  rcases hi with rfl | rfl | rfl
  · refine ⟨⟨.uint _ _, ?_⟩, ?_⟩
    · intro c hc; cases hc; exact ⟨(1, 9), by simp, by decide, by decide⟩
    · intro n rs _ hc r hr; cases hc; simp at hr; subst hr; decide
  · refine ⟨⟨.string _ _, ?_⟩, ?_⟩
    · intro c hc; cases hc; simp [Satisfies, Setting.valueString]
    · intro n rs h; cases h
  · refine ⟨⟨.bool _ _, ?_⟩, ?_⟩
    · intro c hc; cases hc
    · intro n rs h; cases h

/-! ## C30 -/

/-- C30.  Whatever storage backs the store (also one that fails), after every history of reads, sets,
removes and subscription changes – accepted or rejected – reading a known key gives a value of its
declared type that satisfies its declared constraint.

Partial: ranges on unsigned settings must not have negative bounds (`Sane`), see
`C30_unsigned_violated`; `set_storage` is not among the calls, see `C30_set_storage_violated` and
`C30_set_storage_partial`. -/
theorem C30_conforms_partial (e : Ext) (A : Adapter σ) (schema : List Info) (sto : σ) (ops : List (Op σ))
    (hschema : SchemaOk e schema) (hops : ∀ o ∈ ops, o.Plain ∧ o.Fits) (k : Str) (i : Info)
    (hk : declared schema k = some i) :
    ∃ v, (read A (run e A (new schema sto) ops).1 k).1 = some (some v) ∧ Conforms e i v := by
  have hinf := run_plain_infos e A ops (new schema sto) (fun o ho => (hops o ho).1)
  obtain ⟨v, hv, hc⟩ := run_holds e A hschema sto ops hops k i (by rw [hinf, new_infos, hk])
  exact ⟨v, by rw [read_known A hv], hc⟩

example : (run demoExt memory (new demoSchema [])
    [.set ['n'] (.uint 7), .set ['n'] (.uint 12), .set ['s'] (.bool true)]).2.map (fun t => t.2.res) =
    [.ok, .notAllowed, .wrongType] := by decide

/-- C30.  A set is rejected exactly when the key is unknown, the type is wrong or the constraint is not
satisfied, and a rejected set leaves the whole store as it was. -/
theorem C30_rejected (e : Ext) (A : Adapter σ) (schema : List Info) (sto : σ) (ops : List (Op σ))
    (hschema : SchemaOk e schema) (hops : ∀ o ∈ ops, o.Plain ∧ o.Fits) (k : Str) (v : Setting)
    (hv : v.InRange) :
    let s := (run e A (new schema sto) ops).1
    let r := step e A s (.set k v)
    ((∃ i, declared schema k = some i ∧ Conforms e i v) → r.2.res = .ok ∨ r.2.res = .storageError) ∧
    ((¬ ∃ i, declared schema k = some i ∧ Conforms e i v) →
      r.1 = s ∧ r.2.notes = [] ∧ (r.2.res = .unknownKey ∨ r.2.res = .wrongType ∨ r.2.res = .notAllowed)) := by
  intro s r
  have hinf : ∀ k, look s.infos k = declared schema k := by
    intro k
    rw [show s.infos = _ from run_plain_infos e A ops (new schema sto) (fun o ho => (hops o ho).1), new_infos]
  have hacc : ∀ i, declared schema k = some i → (accepts e i v = true ↔ Conforms e i v) :=
    fun i hi => accepts_iff e (hschema i (declared_mem hi).1).2 hv
  have hr : r = ((setVal e A s k v).1, ⟨(setVal e A s k v).2.1, none,
    announce e (setVal e A s k v).1 k (setVal e A s k v).2.2, none⟩) := rfl
  rcases setVal_cases e A s k v with ⟨hn, h⟩ | ⟨i, q, hn, ha, hq, h⟩ | ⟨i, hn, ha, h⟩
  · rw [hinf] at hn
    rw [hr, h]
    refine ⟨?_, fun _ => ⟨rfl, rfl, Or.inl rfl⟩⟩
    rintro ⟨i, hi, _⟩; rw [hn] at hi; cases hi
  · rw [hinf] at hn
    rw [hr, h]
    refine ⟨?_, fun _ => ⟨rfl, rfl, Or.inr hq⟩⟩
    rintro ⟨j, hj, hc⟩
    rw [hn] at hj; cases hj
    rw [(hacc i hn).2 hc] at ha; cases ha
  · rw [hinf] at hn
    rw [hr, h]
    refine ⟨fun _ => ?_, fun hno => absurd ⟨i, hn, (hacc i hn).1 ha⟩ hno⟩
    simp only
    cases (A.save s.sto k v).2 <;> simp

example : (step demoExt memory (new demoSchema []) (.set ['n'] (.uint 9))).2.res = .ok ∧
    (step demoExt memory (new demoSchema []) (.set ['n'] (.uint 10))).2.res = .notAllowed := by decide

/-- C30 fails for an unsigned setting whose range has a negative bound: `usize::MAX` is converted to -1
and accepted by the range -1 to 5. -/
theorem C30_unsigned_violated :
    ∃ (schema : List Info) (ops : List (Op (List (Str × Setting)))) (v : Setting) (i : Info),
      (∀ j ∈ schema, Conforms demoExt j j.default) ∧ (∀ o ∈ ops, o.Plain ∧ o.Fits) ∧
      declared schema ['n'] = some i ∧
      (read memory (run demoExt memory (new schema []) ops).1 ['n']).1 = some (some v) ∧
      ¬ Conforms demoExt i v := by
  refine ⟨[⟨['n'], .uint 4, some (.range [(-1, 5)])⟩], [.set ['n'] (.uint (2 ^ 64 - 1))], .uint (2 ^ 64 - 1),
    ⟨['n'], .uint 4, some (.range [(-1, 5)])⟩, ?_, ?_, by decide, by decide, ?_⟩
  · intro j hj
    simp at hj; subst hj
    refine ⟨.uint _ _, ?_⟩
    intro c hc; cases hc; exact ⟨(-1, 5), by simp, by decide, by decide⟩
  · intro o ho
    simp at ho; subst ho
    exact ⟨trivial, by show (2 ^ 64 - 1 : Nat) < 2 ^ 64; decide⟩
  · rintro ⟨_, h⟩
    obtain ⟨r, hr, h1, h2⟩ := h _ rfl
    simp at hr; subst hr
    simp only [number] at h2
    omega

/-- C30 fails for values that come from the storage: installing a storage whose content has another type
makes the read value ill-typed. -/
theorem C30_set_storage_violated :
    ∃ (m : List (Str × Setting)) (v : Setting) (i : Info), declared demoSchema ['n'] = some i ∧
      (read memory (run demoExt memory (new demoSchema []) [.setStorage m]).1 ['n']).1 = some (some v) ∧
      ¬ Conforms demoExt i v := by
  refine ⟨[(['n'], .string ['x'])], .string ['x'], ⟨['n'], .uint 4, some (.range [(1, 9)])⟩,
    by decide, by decide, ?_⟩
  rintro ⟨h, _⟩; cases h

theorem foldl_put_look (l : List (Str × Setting)) (m : List (Str × Setting)) (k : Str) (v : Setting)
    (h : look (l.foldl (fun m e => put m e.1 e.2) m) k = some v) :
    (k, v) ∈ l ∨ look m k = some v := by
  induction l generalizing m with
  | nil => exact Or.inr h
  | cons x r ih =>
    rw [List.foldl_cons] at h
    rcases ih _ h with h | h
    · exact Or.inl (by simp [h])
    · rw [look_put] at h
      split at h
      · next hk => cases h; left; simp [← hk]
      · exact Or.inr h

/-- C30 for `set_storage` and merging: if everything the new storage contains for known keys conforms,
all known keys still conform after installing it; and merging entries that conform (as a conforming
store's snapshot does) keeps the property for all keys, old and new. -/
theorem C30_set_storage_partial (e : Ext) (A : Adapter σ) (s : Store σ)
    (hs : ∀ (k : Str) (i : Info), look s.infos k = some i →
      ∃ v, (read A s k).1 = some (some v) ∧ look s.vals k = some v ∧ Conforms e i v) :
    (∀ sto, (∀ l, A.all sto = some l → ∀ (k : Str) (v : Setting) (i : Info), (k, v) ∈ l → look s.infos k = some i →
        Conforms e i v) →
      ∀ (k : Str) (i : Info), look (step e A s (.setStorage sto)).1.infos k = some i →
        ∃ v, (read A (step e A s (.setStorage sto)).1 k).1 = some (some v) ∧ Conforms e i v) ∧
    (∀ es ns, (∀ en ∈ es, Conforms e en.1 en.2) →
      ∀ (k : Str) (i : Info), look (step e A s (.merge es ns)).1.infos k = some i →
        ∃ v, (read A (step e A s (.merge es ns)).1 k).1 = some (some v) ∧ Conforms e i v) := by
  constructor
  · intro sto hsto k i hi
    have hinf : (step e A s (.setStorage sto)).1.infos = s.infos := by
      simp only [step, setStorage]; split <;> rfl
    rw [hinf] at hi
    obtain ⟨v0, _, hv0, hc0⟩ := hs k i hi
    have hh := step_holds_true e A (s := s) (.setStorage sto)
      (fun k i h => by obtain ⟨v, _, h2, _⟩ := hs k i h; exact ⟨v, h2, trivial⟩) k i (by rw [hinf]; exact hi)
    obtain ⟨v, hv, _⟩ := hh
    refine ⟨v, by rw [read_known A hv], ?_⟩
    simp only [step, setStorage] at hv
    cases hall : A.all sto with
    | none => rw [hall] at hv; simp only at hv; rw [hv0] at hv; cases hv; exact hc0
    | some l =>
      rw [hall] at hv; simp only at hv
      rcases foldl_put_look l s.vals k v hv with h | h
      · exact hsto l hall k v i h hi
      · rw [hv0] at h; cases h; exact hc0
  · intro es ns hes k i hi
    have := absorb_mono (trimDots ns) es (s, 0) s (Conforms e) (fun _ _ _ h => h)
      (fun k i h => by obtain ⟨v, _, h2, h3⟩ := hs k i h; exact ⟨v, h2, h3⟩) hes k i hi
    obtain ⟨v, hv, hc⟩ := this
    exact ⟨v, congrArg Prod.fst (read_known A (s := (step e A s (.merge es ns)).1) hv), hc⟩

example : (read memory (run demoExt memory (new demoSchema [])
    [.setStorage [(['n'], .uint 5)], .merge [(⟨['q'], .bool true, none⟩, .bool false)] ['x', '.']]).1 ['n']).1 =
    some (some (.uint 5)) := by decide

/-! ## C31 -/

/-- C31.  Reading a known key gives the last value whose set succeeded and that was not successfully
removed afterwards, otherwise the default; calls on other keys have no influence (`lastVal` looks only
at calls on `k`).

Partial: no set of this key may have reported a storage error – such a set changes the value although it
reports an error, see `C34_set_violated`. -/
theorem C31_map_partial (e : Ext) (A : Adapter σ) (schema : List Info) (sto : σ) (ops : List (Op σ)) (k : Str)
    (i : Info) (hk : declared schema k = some i) (hops : ∀ o ∈ ops, o.Plain)
    (hok : ∀ x ∈ (run e A (new schema sto) ops).2, ∀ v, x.1 = .set k v → x.2.res ≠ .storageError) :
    (read A (run e A (new schema sto) ops).1 k).1 =
      some (some (lastVal k i.default (run e A (new schema sto) ops).2)) := by
  rw [read_known A (run_lastVal e A schema sto ops k i hk hops hok)]

theorem memory_ok (e : Ext) (ops : List (Op (List (Str × Setting)))) (s : Store (List (Str × Setting))) :
    ∀ x ∈ (run e memory s ops).2, x.2.res ≠ .storageError := by
  induction ops generalizing s with
  | nil => simp [run]
  | cons o r ih =>
    intro x hx
    simp only [run] at hx
    rcases List.mem_cons.1 hx with rfl | hx
    · cases o with
      | set k v =>
        simp only [step]
        rcases setVal_cases e memory s k v with ⟨_, h⟩ | ⟨_, _, _, _, hr, h⟩ | ⟨_, _, _, h⟩
        · rw [h]; simp
        · rw [h]; rcases hr with hr | hr <;> rw [hr] <;> simp
        · rw [h]; simp [memory]
      | remove k =>
        simp only [step]
        rcases removeVal_cases e memory s k with ⟨_, h⟩ | ⟨_, _, hf, h⟩ | ⟨_, _, _, h⟩
        · rw [h]; simp
        · simp [memory] at hf
        · rw [h]; simp
      | _ => simp [step]
    · exact ih _ x hx

/-- C31 for the default, in-memory storage: no side condition on the reports. -/
theorem C31_memory (e : Ext) (schema : List Info) (sto : List (Str × Setting))
    (ops : List (Op (List (Str × Setting)))) (k : Str) (i : Info) (hk : declared schema k = some i)
    (hops : ∀ o ∈ ops, o.Plain) :
    (read memory (run e memory (new schema sto) ops).1 k).1 =
      some (some (lastVal k i.default (run e memory (new schema sto) ops).2)) :=
  C31_map_partial e memory schema sto ops k i hk hops
    (fun x hx v _ => memory_ok e ops (new schema sto) x hx)

example : (read memory (run demoExt memory (new demoSchema [])
    [.set ['n'] (.uint 7), .set ['n'] (.uint 0), .set ['s'] (.string ['b']), .remove ['s']]).1 ['n']).1 =
    some (some (.uint 7)) := by decide

theorem trimDots_spec (base : Str) (n : Nat) (h : base.getLast? ≠ some '.') :
    trimDots (base ++ List.replicate n '.') = base := by
  unfold trimDots
  rw [List.reverse_append, List.reverse_replicate]
  have h1 : ∀ (n : Nat) (l : Str), List.dropWhile (fun c => decide (c = '.')) (List.replicate n '.' ++ l) =
      List.dropWhile (fun c => decide (c = '.')) l := by
    intro n l
    induction n with
    | zero => rfl
    | succ n ih => rw [List.replicate_succ, List.cons_append, List.dropWhile_cons, if_pos (by decide), ih]
  rw [h1, dropWhile_eq_self, List.reverse_reverse]
  intro c hc
  rw [List.head?_reverse] at hc
  simp only [decide_eq_false_iff_not]
  rintro rfl
  exact h hc

theorem prefixed_eq (base k : Str) : prefixed base k = mergedKey base k := by
  cases base <;> simp [prefixed, mergedKey]

/-- C31.  Merging another store (its snapshot) under a prefix: a key already known keeps its declaration
and its value; a key of the other store that was not known here is added with the other store's value;
every other key is untouched; for every history of the other store.  The namespace may be written with
any number of dots at its end. -/
theorem C31_merge (e : Ext) (A : Adapter σ) (s : Store σ) (schema : List Info) (sto : σ) (ops : List (Op σ))
    (base : Str) (dots : Nat) (hbase : base.getLast? ≠ some '.') :
    let ns := base ++ List.replicate dots '.'
    let other := (run e A (new schema sto) ops).1
    let s' := (step e A s (.merge (snapshot other) ns)).1
    (∀ (k : Str) (i : Info), look s.infos k = some i → look s'.infos k = some i ∧
      (∀ v, look s.vals k = some v → (read A s' k).1 = some (some v))) ∧
    (∀ (k : Str) (i : Info), look other.infos k = some i →
      look s.infos (prefixed base k) = none →
      look s'.infos (prefixed base k) = some { i with key := prefixed base k } ∧
      (read A s' (prefixed base k)).1 = (read A other k).1) ∧
    (∀ k', (∀ (k : Str) (i : Info), look other.infos k = some i → prefixed base k ≠ k') →
      look s'.infos k' = look s.infos k' ∧ look s'.vals k' = look s.vals k') := by
  intro ns other s'
  have hns : trimDots ns = base := trimDots_spec base dots hbase
  have hpre : ∀ k, prefixed base k = mergedKey (trimDots ns) k := fun k => by rw [hns, prefixed_eq]
  simp only [hpre]
  have hs' : s' = ((snapshot other).foldl (absorbOne (trimDots ns)) (s, 0)).1 := rfl
  have hsnap : ∀ x ∈ snapshot other, look other.infos x.1.key = some x.1 ∧
      x.2 = (look other.vals x.1.key).getD x.1.default := by
    intro x hx
    simp only [snapshot, List.mem_filterMap] at hx
    obtain ⟨k, _, hk⟩ := hx
    split at hk
    · next i hi =>
      cases hk
      have hl := (run_listed e A schema sto ops k i hi).1
      simp only [hl]; exact ⟨hi, trivial⟩
    · cases hk
  refine ⟨?_, ?_, ?_⟩
  · intro k i hi
    have := absorb_known (trimDots ns) (snapshot other) (s, 0) k i hi
    refine ⟨this.1, fun v hv => ?_⟩
    rw [hs', read_known A (this.2.trans hv)]
  · intro k i hi hnone
    obtain ⟨v, hv, _⟩ := run_holds_true e A schema sto ops k i hi
    have hv : look other.vals k = some v := hv
    obtain ⟨hik, hmem⟩ := run_listed e A schema sto ops k i hi
    have hen : (i, v) ∈ snapshot other := by
      simp only [snapshot, List.mem_filterMap]
      exact ⟨k, hmem, by rw [hi, hv]; rfl⟩
    have huniq : ∀ x ∈ snapshot other, mergedKey (trimDots ns) x.1.key = mergedKey (trimDots ns) i.key →
        x = (i, v) := by
      intro x hx hxk
      obtain ⟨h1, h2⟩ := hsnap x hx
      rw [mergedKey_inj _ _ _ hxk, hik] at h1 h2
      rw [hi] at h1; rw [hv] at h2
      cases h1
      exact Prod.ext rfl h2
    have := absorb_new (trimDots ns) (snapshot other) (s, 0) (i, v) hen huniq (by rw [hik]; exact hnone)
    simp only [hik] at this
    exact ⟨this.1, by rw [hs', read_known A this.2, read_known A hv]⟩
  · intro k' hk'
    refine absorb_other (trimDots ns) (snapshot other) (s, 0) k' ?_
    intro en hen
    exact hk' en.1.key en.1 (hsnap en hen).1

example : (read memory (step demoExt memory (new demoSchema [])
      (.merge (snapshot (run demoExt memory (new demoSchema []) [.set ['n'] (.uint 7)]).1) ['x', '.'])).1
        ['x', '.', 'n']).1 = some (some (.uint 7)) ∧
    (read memory (step demoExt memory (new demoSchema [])
      (.merge (snapshot (run demoExt memory (new demoSchema []) [.set ['n'] (.uint 7)]).1) [])).1
        ['n']).1 = some (some (.uint 4)) := by decide

/-- C31, a gap: a key that is not declared but present in the storage is readable; merging a declaration
for it replaces the stored value by the other store's, so the value loaded before is lost from memory. -/
theorem C31_merge_hides_stored_violated :
    ∃ (sto : List (Str × Setting)) (es : List (Info × Setting)),
      (read memory (new [] sto) ['q']).1 = some (some (.uint 3)) ∧
      (read memory (step demoExt memory (new [] sto) (.merge es [])).1 ['q']).1 = some (some (.uint 1)) :=
  ⟨[(['q'], .uint 3)], [(⟨['q'], .uint 1, none⟩, .uint 1)], by decide⟩

/-! ## C32 -/

theorem announce_mem (e : Ext) {s : Store σ} {hist : List (Op σ)} (h : SubsOk hist s) (k : Str) (v : Setting)
    (n : Note) : n ∈ announce e s k (some v) ↔
      n.2 = (k, v) ∧ ∃ pat, Live hist n.1 pat ∧ e.wild pat k = true := by
  simp only [announce, matching, List.mem_map, List.mem_filter]
  constructor
  · rintro ⟨id, ⟨b, ⟨hb, hw⟩, rfl⟩, rfl⟩
    exact ⟨rfl, b.2, (h.mem b.1 b.2).1 hb, hw⟩
  · rintro ⟨hn, pat, hl, hw⟩
    exact ⟨n.1, ⟨(n.1, pat), ⟨(h.mem _ _).2 hl, hw⟩, rfl⟩, by rw [← hn]⟩

theorem announce_nodup (e : Ext) {s : Store σ} {hist : List (Op σ)} (h : SubsOk hist s) (k : Str)
    (v : Option Setting) : ((announce e s k v).map (·.1)).Nodup := by
  cases v with
  | none => simp [announce]
  | some v =>
    simp only [announce, matching, List.map_map]
    have : ((fun x : Note => x.1) ∘ fun id => (id, k, v)) = id := rfl
    rw [← List.map_map, ← List.map_map] 
    simp only [List.map_map, this, List.map_id]
    exact h.nodup.sublist (List.Sublist.map _ List.filter_sublist)

/-- C32.  For every history and every next call that reports success: the notifications sent go, once
each (no subscription id occurs twice), exactly to the live subscriptions whose pattern matches the
changed key, carry that key and the value now stored, and are sent exactly when the call was a set or a
remove and the value read before and the value read after differ.

Partial: for a call that reports a storage error see `C32_failed_write_violated`. -/
theorem C32_notifications_partial (e : Ext) (A : Adapter σ) (schema : List Info) (sto : σ) (hist : List (Op σ))
    (o : Op σ) :
    let s := (run e A (new schema sto) hist).1
    let r := step e A s o
    r.2.res = .ok →
    (r.2.notes.map (·.1)).Nodup ∧
    ∀ (id : Nat) (k : Str) (v : Setting), (id, k, v) ∈ r.2.notes ↔
      o.target = some k ∧ (∃ pat, Live hist id pat ∧ e.wild pat k = true) ∧
      (read A r.1 k).1 = some (some v) ∧ Differ e (read A s k).1 (read A r.1 k).1 := by
  intro s r hok
  have hsub : SubsOk hist s := run_subs e A schema sto hist
  have hhold : Holds (fun _ _ => True) s := run_holds_true e A schema sto hist
  have key : ∀ (k : Str) (s' : Store σ) (w : Setting), (∃ i, look s.infos k = some i) →
      s'.subs = s.subs → s'.next = s.next → look s'.vals k = some w → o.target = some k →
      ((announce e s' k (if differs e s k w then some w else none)).map (·.1)).Nodup ∧
      ∀ (id : Nat) (k' : Str) (v : Setting),
        (id, k', v) ∈ announce e s' k (if differs e s k w then some w else none) ↔
        o.target = some k' ∧ (∃ pat, Live hist id pat ∧ e.wild pat k' = true) ∧
        (read A s' k').1 = some (some v) ∧ Differ e (read A s k').1 (read A s' k').1 := by
    intro k s' w ⟨i, hi⟩ h1 h2 h3 h4
    have hsub' : SubsOk hist s' := ⟨h2.trans hsub.next, by rw [h1]; exact hsub.mem, by rw [h1]; exact hsub.nodup,
      by rw [h1, h2]; exact hsub.lt⟩
    refine ⟨announce_nodup e hsub' k _, ?_⟩
    intro id k' v
    obtain ⟨u, hu, _⟩ := hhold k i hi
    have hd : differs e s k w = !u.eqv e w := by simp [differs, hu]
    constructor
    · intro hm
      cases hdd : differs e s k w with
      | false => rw [hdd] at hm; simp [announce] at hm
      | true =>
        rw [hdd, if_pos rfl, announce_mem e hsub'] at hm
        obtain ⟨hkv, hl⟩ := hm
        cases hkv
        refine ⟨h4, hl, by rw [read_known A h3], ?_⟩
        rw [read_known A h3, read_known A hu]
        intro a b ha hb
        cases ha; cases hb
        rw [hd] at hdd
        simpa using hdd
    · rintro ⟨h5, hl, hr, hdf⟩
      rw [h4] at h5; cases h5
      rw [read_known A h3] at hr hdf; cases hr
      rw [read_known A hu] at hdf
      have := hdf u w rfl rfl
      rw [hd, this]
      rw [show (if (!false) = true then some w else none) = some w from rfl, announce_mem e hsub']
      exact ⟨rfl, hl⟩
  have nothing : o.target = none → r.2.notes = [] →
      (r.2.notes.map (·.1)).Nodup ∧
      ∀ (id : Nat) (k : Str) (v : Setting), (id, k, v) ∈ r.2.notes ↔
        o.target = some k ∧ (∃ pat, Live hist id pat ∧ e.wild pat k = true) ∧
        (read A r.1 k).1 = some (some v) ∧ Differ e (read A s k).1 (read A r.1 k).1 := by
    intro ht hn
    rw [hn, ht]
    simp
  cases o with
  | set k v =>
    have hr : r = ((setVal e A s k v).1, ⟨(setVal e A s k v).2.1, none,
      announce e (setVal e A s k v).1 k (setVal e A s k v).2.2, none⟩) := rfl
    rw [hr] at hok ⊢
    rcases setVal_cases e A s k v with ⟨_, h⟩ | ⟨_, q, _, _, hq, h⟩ | ⟨i, hi, _, h⟩
    · rw [h] at hok; cases hok
    · rw [h] at hok; rcases hq with hq | hq <;> rw [hq] at hok <;> cases hok
    · cases hsv : (A.save s.sto k v).2 with
      | false => rw [h, hsv] at hok; cases hok
      | true =>
        rw [h, hsv]
        simp only [if_true]
        exact key k { s with vals := put s.vals k v, sto := (A.save s.sto k v).1 } v ⟨i, hi⟩ rfl rfl
          (by simp [look_put]) rfl
  | remove k =>
    have hr : r = ((removeVal e A s k).1, ⟨(removeVal e A s k).2.1, none,
      announce e (removeVal e A s k).1 k (removeVal e A s k).2.2, none⟩) := rfl
    rw [hr] at hok ⊢
    rcases removeVal_cases e A s k with ⟨_, h⟩ | ⟨_, _, _, h⟩ | ⟨i, hi, _, h⟩
    · rw [h] at hok; cases hok
    · rw [h] at hok; cases hok
    · rw [h]
      exact key k { s with vals := put s.vals k i.default, sto := (A.erase s.sto k).1 } i.default ⟨i, hi⟩ rfl rfl
          (by simp [look_put]) rfl
  | get k => exact nothing rfl rfl
  | subscribe p => exact nothing rfl rfl
  | unsubscribe p => exact nothing rfl rfl
  | setStorage p => exact nothing rfl rfl
  | merge p q => exact nothing rfl rfl

example : ((run demoExt memory (new demoSchema [])
    [.subscribe ['*'], .subscribe ['s'], .set ['n'] (.uint 7), .set ['n'] (.uint 7), .unsubscribe 0,
     .remove ['n'], .set ['s'] (.string ['b'])]).2.map (fun t => t.2.notes)) =
    [[], [], [(0, ['n'], .uint 7)], [], [], [], [(1, ['s'], .string ['b'])]] := by decide

/-- C32.  A rejected call and a call that reports a storage error send no notification. -/
theorem C32_silent (e : Ext) (A : Adapter σ) (s : Store σ) (o : Op σ) (h : (step e A s o).2.res ≠ .ok) :
    (step e A s o).2.notes = [] := by
  cases o with
  | set k v =>
    simp only [step] at h ⊢
    rcases setVal_cases e A s k v with ⟨_, hh⟩ | ⟨_, q, _, _, hq, hh⟩ | ⟨i, hi, _, hh⟩
    · rw [hh]; rfl
    · rw [hh]; rfl
    · rw [hh] at h ⊢
      cases hsv : (A.save s.sto k v).2 with
      | false => rfl
      | true => rw [hsv] at h; exact absurd rfl h
  | remove k =>
    simp only [step] at h ⊢
    rcases removeVal_cases e A s k with ⟨_, hh⟩ | ⟨_, _, _, hh⟩ | ⟨i, hi, _, hh⟩
    · rw [hh]; rfl
    · rw [hh]; rfl
    · rw [hh] at h; exact absurd rfl h
  | _ => rfl

/-- C32.  Subscription ids are never reused: any two `subscribe` calls of a history return different
ids, whatever was unsubscribed in between, and the id returned is the one that is live afterwards. -/
theorem C32_ids (e : Ext) (A : Adapter σ) (schema : List Info) (sto : σ) (a b : List (Op σ)) (p q : Str) :
    let first := (step e A (run e A (new schema sto) a).1 (.subscribe p)).2.sub
    let second := (step e A (run e A (new schema sto) (a ++ .subscribe p :: b)).1 (.subscribe q)).2.sub
    first = some (countSubs a) ∧ second = some (countSubs a + 1 + countSubs b) ∧ first ≠ second ∧
    Live (a ++ [.subscribe p]) (countSubs a) p := by
  intro first second
  have h1 : first = some (countSubs a) := by
    show some (run e A (new schema sto) a).1.next = _
    rw [(run_subs e A schema sto a).next]
  have h2 : second = some (countSubs a + 1 + countSubs b) := by
    show some (run e A (new schema sto) (a ++ .subscribe p :: b)).1.next = _
    rw [(run_subs e A schema sto _).next, countSubs_append]
    simp only [countSubs]; congr 1; omega
  refine ⟨h1, h2, ?_, a, [], rfl, rfl, by simp⟩
  rw [h1, h2]
  intro h
  have := Option.some.inj h
  omega

example : ((run demoExt memory (new demoSchema [])
    [.subscribe ['*'], .unsubscribe 0, .subscribe ['*']]).2.map (fun t => t.2.sub)) =
    [some 0, none, some 1] := by decide

/-- C32 fails when the storage reports an error: the value read changes, and the subscriber is not
told. -/
theorem C32_failed_write_violated :
    ∃ (s : Store Sql) (id : Nat), (id, ['*']) ∈ s.subs ∧
      (read (sqlite demoExt) s ['n']).1 = some (some (.uint 4)) ∧
      (read (sqlite demoExt) (step demoExt (sqlite demoExt) s (.set ['n'] (.uint 7))).1 ['n']).1 =
        some (some (.uint 7)) ∧
      (step demoExt (sqlite demoExt) s (.set ['n'] (.uint 7))).2.notes = [] :=
  ⟨(run demoExt (sqlite demoExt) (new demoSchema ⟨[], true⟩) [.subscribe ['*']]).1, 0, by decide⟩

/-! ## C33 -/

/-- C33.  Writing a setting to text and parsing it gives the same setting.  Partial: for lists whose
elements contain a comma, and for the list of one empty string, see the violations below; for floats the
standard library's text conversion is assumed to round trip (it does except for NaN payloads). -/
theorem C33_roundtrip_partial (e : Ext) (v : Setting) (h : Writable e v) :
    Setting.parse e (v.display e) = some v := by
  have hs : ∀ (c : Char) (r : Str), c ≠ ':' → splitOnce ':' (c :: ':' :: r) = some ([c], r) := by
    intro c r hc
    exact splitOnce_append ':' [c] r (by simpa using Ne.symm hc)
  cases v with
  | sint n =>
    unfold Setting.parse Setting.display
    rw [hs 'i' _ (by decide)]
    simp [parseI64_intStr n h.1 h.2]
  | uint n =>
    unfold Setting.parse Setting.display
    rw [hs 'u' _ (by decide)]
    simp [parseUsize_natStr n h]
  | float b =>
    unfold Setting.parse Setting.display
    rw [hs 'f' _ (by decide)]
    have : e.fparse (e.fdisp b) = some b := h
    simp [this]
  | string s =>
    unfold Setting.parse Setting.display
    rw [hs 's' _ (by decide)]
    simp
  | bool b => cases b <;> rfl
  | map vs =>
    unfold Setting.parse Setting.display
    rw [hs 'm' _ (by decide)]
    obtain ⟨h1, h2⟩ := h
    simp only [List.cons.injEq, and_true, Char.reduceEq, if_false, if_true]
    by_cases hn : join [','] vs = []
    · rw [if_pos hn]
      rcases join_eq_nil hn with h | h
      · rw [h]
      · exact absurd h h2
    · rw [if_neg hn, splitOn_join vs (by rintro rfl; exact hn rfl) h1]

example : Writable demoExt (.map [['a'], [], ['b', ' ']]) ∧ Writable demoExt (.sint (-5)) := by
  refine ⟨⟨by decide, by decide⟩, ?_⟩
  show -(2 ^ 63) ≤ (-5 : Int) ∧ (-5 : Int) < 2 ^ 63
  decide

/-- C33 fails for a list with a comma in an element: it comes back as a longer list. -/
theorem C33_comma_violated : ∃ vs : List Str,
    Setting.parse demoExt ((Setting.map vs).display demoExt) ≠ some (.map vs) :=
  ⟨[['a', ',', 'b']], by decide⟩

/-- C33 fails for the list of one empty string: it comes back as the empty list. -/
theorem C33_empty_violated : Setting.parse demoExt ((Setting.map [[]]).display demoExt) = some (.map []) := by
  decide

/-- C33, what storage backends rely on: the SQL table gives back what was saved under a key, and the
other rows are untouched. -/
theorem C33_sqlite_partial (e : Ext) (m : Sql) (k : Str) (v : Setting) (hv : Writable e v) (hb : m.bad = false) :
    (sqlite e).load ((sqlite e).save m k v).1 k = some (some v) ∧
    ∀ k', k' ≠ k → (sqlite e).load ((sqlite e).save m k v).1 k' = (sqlite e).load m k' := by
  constructor
  · simp [sqlite, hb, look_put, C33_roundtrip_partial e v hv]
  · intro k' hk'
    simp only [sqlite, hb, Bool.false_eq_true, if_false, look_put, if_neg (Ne.symm hk')]

example : (sqlite demoExt).load ((sqlite demoExt).save ⟨[], false⟩ ['k'] (.uint 3)).1 ['k'] =
    some (some (.uint 3)) := by decide

/-! ## C34 -/

/-- C34 fails for `set`: the new value is put into memory before the storage is asked, so after a
refused write the value read is the new one. -/
theorem C34_set_violated :
    ∃ (s : Store Sql) (k : Str) (v : Setting),
      (step demoExt (sqlite demoExt) s (.set k v)).2.res = .storageError ∧
      (read (sqlite demoExt) (step demoExt (sqlite demoExt) s (.set k v)).1 k).1 ≠
        (read (sqlite demoExt) s k).1 :=
  ⟨new demoSchema ⟨[], true⟩, ['n'], .uint 7, by decide⟩

/-- C34 for `remove`, with any storage: when it reports an error, every value held in memory – so every
known key – reads as before. -/
theorem C34_remove_partial (e : Ext) (A : Adapter σ) (schema : List Info) (sto : σ) (hist : List (Op σ)) (k : Str) :
    let s := (run e A (new schema sto) hist).1
    let r := step e A s (.remove k)
    r.2.res = .storageError →
    ∀ (k' : Str) (i : Info), look s.infos k' = some i → (read A r.1 k').1 = (read A s k').1 := by
  intro s r hr k' i hi
  obtain ⟨v, hv, _⟩ := run_holds_true e A schema sto hist k' i hi
  have hv : look s.vals k' = some v := hv
  have hrr : r = ((removeVal e A s k).1, ⟨(removeVal e A s k).2.1, none,
    announce e (removeVal e A s k).1 k (removeVal e A s k).2.2, none⟩) := rfl
  rw [hrr] at hr ⊢
  rcases removeVal_cases e A s k with ⟨_, h⟩ | ⟨_, _, _, h⟩ | ⟨_, _, _, h⟩
  · rw [h] at hr; cases hr
  · rw [h]
    show (read A { s with sto := (A.erase s.sto k).1 } k').1 = _
    rw [read_known A hv, read_known A (s := { s with sto := (A.erase s.sto k).1 }) hv]
  · rw [h] at hr; cases hr

example : (step demoExt (sqlite demoExt) (new demoSchema ⟨[], true⟩) (.remove ['n'])).2.res = .storageError := by
  decide

/-- C34 for the SQL storage: a write it refuses leaves the table as it was, so a store opened on it later
(`set_storage`) reads the old values. -/
theorem C34_sqlite_table_partial (e : Ext) (s : Store Sql) (o : Op Sql) (ho : ∀ m, o ≠ .setStorage m)
    (h : (step e (sqlite e) s o).2.res = .storageError) :
    (step e (sqlite e) s o).1.sto = s.sto := by
  cases o with
  | set k v =>
    simp only [step] at h ⊢
    rcases setVal_cases e (sqlite e) s k v with ⟨_, hh⟩ | ⟨_, q, _, _, hq, hh⟩ | ⟨i, hi, _, hh⟩
    · rw [hh]
    · rw [hh]
    · rw [hh] at h ⊢
      simp only [sqlite] at h ⊢
      cases hb : s.sto.bad with
      | true => simp
      | false => simp [hb] at h
  | remove k =>
    simp only [step] at h ⊢
    rcases removeVal_cases e (sqlite e) s k with ⟨_, hh⟩ | ⟨_, _, hf, hh⟩ | ⟨i, hi, _, hh⟩
    · rw [hh]
    · rw [hh]
      simp only [sqlite] at hf ⊢
      cases hb : s.sto.bad with
      | true => simp
      | false => simp [hb] at hf
    · rw [hh] at h; cases h
  | get k => simp [step] at h
  | subscribe p => simp [step] at h
  | unsubscribe p => simp [step] at h
  | setStorage p => exact absurd rfl (ho p)
  | merge p q => simp [step] at h

example : (step demoExt (sqlite demoExt) (new demoSchema ⟨[], true⟩) (.set ['n'] (.uint 7))).2.res =
    .storageError := by decide

/-- C34 fails for the JSON file: the file is truncated and then written, so a write that fails (or a
crash) in between leaves neither the old nor the new content. -/
theorem C34_json_file_violated (enc : List (Str × Setting) → Str)
    (old : JsonFile) (k : Str) (v : Setting) (hold : old.file ≠ []) (hnew : enc (put old.elements k v) ≠ []) :
    ∃ fate, ((json enc).save { old with fate := fate } k v).2 = false ∧
      ((json enc).save { old with fate := fate } k v).1.file ≠ old.file ∧
      ((json enc).save { old with fate := fate } k v).1.file ≠ enc (put old.elements k v) := by
  refine ⟨.short 0, rfl, ?_, ?_⟩
  · show (enc (put old.elements k v)).take 0 ≠ old.file
    simpa using Ne.symm hold
  · show (enc (put old.elements k v)).take 0 ≠ enc (put old.elements k v)
    simpa using Ne.symm hnew

example : (⟨[], ['{', '}'], .fine⟩ : JsonFile).file ≠ [] := by decide

/-! ## C62 -/

/-- C62.  If a constraint text parses to a constraint, then the constraint's permitted values, written
as a comma-separated list, parse to the same constraint. -/
theorem C62_roundtrip (t : Str) (c : Constraint) (h : Constraint.parse t = some (some c)) :
    Constraint.parse (join [','] c.tokens) = some (some c) := by
  unfold Constraint.parse at h
  simp only at h
  by_cases hne : tokensOf t = []
  · rw [if_pos hne] at h; cases h
  · rw [if_neg hne] at h
    split at h
    · cases h
    · next rs hrs =>
      cases h
      obtain ⟨hlen, hin⟩ := parseRanges_range hrs
      have htk : (Constraint.range rs).tokens = rs.map rangeText := rfl
      have htok : ∀ x ∈ rs.map rangeText, Tok x := by
        intro x hx
        obtain ⟨r, _, rfl⟩ := List.mem_map.1 hx
        exact rangeText_tok r
      unfold Constraint.parse
      simp only [htk, tokensOf_join _ htok]
      rw [if_neg, parseRanges_text rs hin]
      intro hnil
      have : rs = [] := by simpa using hnil
      subst this
      exact hne (List.length_eq_zero_iff.1 hlen.symm)
    · next hrs =>
      cases h
      unfold Constraint.parse
      simp only [Constraint.tokens, tokensOf_join _ (tokensOf_tok t)]
      rw [if_neg hne, hrs]

example : Constraint.parse "1-5, -3--1, 7".toList = some (some (.range [(1, 5), (-3, -1), (7, 7)])) := by
  decide +kernel

/-- C62.  Parsing a constraint text does not panic if every item starts with an ASCII character. -/
theorem C62_no_panic_partial (t : Str) (h : ∀ x ∈ tokensOf t, ∀ c, x.head? = some c → c.toNat < 128) :
    Constraint.parse t ≠ none := by
  unfold Constraint.parse
  simp only
  split
  · simp
  · have := parseRanges_some (ts := tokensOf t) (by
      intro x hx
      cases x with
      | nil => exact absurd rfl (tokensOf_tok t [] hx).2.1
      | cons c r => exact ⟨c, r, rfl, h _ hx c rfl⟩)
    split
    · next h => exact absurd h this
    · simp
    · simp

example : Constraint.parse "dark, light".toList = some (some (.enum ["dark".toList, "light".toList])) := by
  decide +kernel

/-- C62 fails for other texts: an item starting with a longer character makes the parser panic. -/
theorem C62_panic_violated : Constraint.parse ['é', 't', 'é'] = none := by decide

end Verif.Config
