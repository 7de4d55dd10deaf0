import Verif.Cascade.Spec
import Mathlib.Data.List.Induction

/-!
# Lemmas for the cascade: order, winner, expansion lists
-/
set_option linter.unusedVariables false
set_option linter.unusedSimpArgs false
namespace Verif.Cascade
open Verif Verif.Map Verif.Select

theorem priority_lt (d e : Decl) : d.priority < e.priority ↔ d.level < e.level := by
  obtain ⟨_, o, i, _⟩ := d
  obtain ⟨_, o', i', _⟩ := e
  cases o <;> cases i <;> cases o' <;> cases i' <;>
    (simp only [Decl.priority, Decl.level]; decide)

theorem priority_eq (d e : Decl) : d.priority = e.priority ↔ d.level = e.level := by
  have h1 := priority_lt d e
  have h2 := priority_lt e d
  omega

theorem le_iff (d e : Decl) : d.le e = true ↔ ¬ Weaker e d := by
  have h1 := priority_lt d e
  have h2 := priority_eq d e
  have h3 := priority_lt e d
  simp only [Decl.le, Bool.or_eq_true, decide_eq_true_eq, Bool.and_eq_true, Spec3.le, Weaker, Spec3.Less]
  omega

theorem le_false_iff (d e : Decl) : d.le e = false ↔ Weaker e d := by
  rw [← Bool.not_eq_true, le_iff]
  exact Classical.not_not

theorem weaker_trans {a b c : Decl} (h : Weaker a b) (k : Weaker b c) : Weaker a c := by
  simp only [Weaker, Spec3.Less] at *; omega

theorem weaker_le {a b c : Decl} (h : Weaker a b) (k : ¬ Weaker c b) : Weaker a c := by
  simp only [Weaker, Spec3.Less] at *; omega

theorem le_weaker {a b c : Decl} (h : ¬ Weaker b a) (k : Weaker b c) : Weaker a c := by
  simp only [Weaker, Spec3.Less] at *; omega

theorem nw_trans {a b c : Decl} (h : ¬ Weaker b a) (k : ¬ Weaker c b) : ¬ Weaker c a := by
  simp only [Weaker, Spec3.Less] at *; omega

theorem weaker_irrefl (a : Decl) : ¬ Weaker a a := by simp only [Weaker, Spec3.Less]; omega

theorem weaker_asymm {a b : Decl} (h : Weaker a b) : ¬ Weaker b a := by
  simp only [Weaker, Spec3.Less] at *; omega

/-- the later of two, unless the former is stronger -/
def keep (o : Option Decl) (d : Decl) : Decl :=
  match o with
  | Option.none => d
  | some m => if m.le d then d else m

/-- the same for two optional ones -/
def join (o : Option Decl) (p : Option Decl) : Option Decl :=
  match p with
  | Option.none => o
  | some d => some (keep o d)

theorem keep_some_of_nw {m d : Decl} (h : ¬ Weaker d m) : keep (some m) d = d := by
  simp [keep, (le_iff m d).2 h]

theorem keep_some_of_w {m d : Decl} (h : Weaker d m) : keep (some m) d = m := by
  simp [keep, (le_false_iff m d).2 h]

theorem keep_assoc (o : Option Decl) (d e : Decl) : keep (some (keep o d)) e = keep o (keep (some d) e) := by
  cases o with
  | none => rfl
  | some m =>
    by_cases h1 : Weaker d m
    · rw [keep_some_of_w h1]
      by_cases h2 : Weaker e m
      · rw [keep_some_of_w h2]
        by_cases h3 : Weaker e d
        · rw [keep_some_of_w h3, keep_some_of_w h1]
        · rw [keep_some_of_nw h3, keep_some_of_w h2]
      · rw [keep_some_of_nw h2]
        have h3 : ¬ Weaker e d := fun h => h2 (weaker_trans h h1)
        rw [keep_some_of_nw h3, keep_some_of_nw h2]
    · rw [keep_some_of_nw h1]
      by_cases h3 : Weaker e d
      · rw [keep_some_of_w h3, keep_some_of_nw h1]
      · rw [keep_some_of_nw h3, keep_some_of_nw (nw_trans h1 h3)]

theorem join_assoc (a b c : Option Decl) : join (join a b) c = join a (join b c) := by
  cases c with
  | none => rfl
  | some c =>
    cases b with
    | none => rfl
    | some b => simp only [join, keep_assoc]

theorem join_none_left (a : Option Decl) : join Option.none a = a := by cases a <;> rfl

theorem keep_tied {o : Option Decl} {d e : Decl} (h : Tied d e) : keep (some (keep o d)) e = keep o e := by
  rw [keep_assoc, keep_some_of_nw h.2]

theorem maxLast_cons (d : Decl) (r : List Decl) (o : Option Decl) :
    maxLast (d :: r) o = maxLast r (some (keep o d)) := by
  cases o <;> rfl

theorem maxLast_append : ∀ (a b : List Decl) (o : Option Decl), maxLast (a ++ b) o = maxLast b (maxLast a o)
  | [], b, o => by simp [maxLast]
  | d :: r, b, o => by rw [List.cons_append, maxLast_cons, maxLast_cons, maxLast_append r b]

theorem maxLast_acc : ∀ (l : List Decl) (o : Option Decl), maxLast l o = join o (maxLast l Option.none)
  | [], o => by simp [maxLast, join]
  | d :: r, o => by
    rw [maxLast_cons, maxLast_acc r, maxLast_cons, maxLast_acc r (some (keep Option.none d)), ← join_assoc]
    rfl

theorem maxLast_mem : ∀ (l : List Decl) (o : Option Decl) (d : Decl), maxLast l o = some d → d ∈ l ∨ o = some d
  | [], o, d, h => Or.inr (by simpa [maxLast] using h)
  | x :: r, o, d, h => by
    rw [maxLast_cons] at h
    rcases maxLast_mem r _ d h with h | h
    · exact Or.inl (List.mem_cons_of_mem _ h)
    · cases o with
      | none => simp [keep] at h; simp [h]
      | some m =>
        simp only [keep, Option.some.injEq] at h
        split at h
        · simp [h]
        · simp [h]

theorem maxLast_weak : ∀ (b : List Decl) (d : Decl), (∀ e ∈ b, Weaker e d) → maxLast b (some d) = some d
  | [], d, _ => rfl
  | e :: r, d, h => by
    rw [maxLast_cons, keep_some_of_w (h e (by simp))]
    exact maxLast_weak r d (fun x hx => h x (by simp [hx]))

/-- the engine's maximum is the winner -/
theorem maxLast_iff (l : List Decl) (d : Decl) : maxLast l Option.none = some d ↔ Wins l d := by
  constructor
  · induction l using List.reverseRecOn generalizing d with
    | nil => intro h; simp [maxLast] at h
    | append_singleton r x ih =>
      intro h
      rw [maxLast_append, maxLast_cons, maxLast] at h
      cases hm : maxLast r Option.none with
      | none =>
        rw [hm] at h
        simp only [keep, Option.some.injEq] at h
        subst h
        have : r = [] := by
          cases r with
          | nil => rfl
          | cons y t =>
            rw [maxLast_cons, maxLast_acc] at hm
            cases hq : maxLast t Option.none <;> simp [hq, join] at hm
        subst this
        exact ⟨[], [], rfl, by simp, by simp⟩
      | some m =>
        rw [hm] at h
        obtain ⟨a, b, e, h1, h2⟩ := ih m hm
        by_cases hw : Weaker x m
        · rw [keep_some_of_w hw] at h
          cases h
          refine ⟨a, b ++ [x], by simp [e], h1, ?_⟩
          intro y hy
          rcases List.mem_append.1 hy with hy | hy
          · exact h2 y hy
          · simp at hy; subst hy; exact hw
        · rw [keep_some_of_nw hw] at h
          cases h
          refine ⟨r, [], rfl, ?_, by simp⟩
          intro y hy
          rw [e] at hy
          rcases List.mem_append.1 hy with hy | hy
          · exact nw_trans (h1 y hy) hw
          · rcases List.mem_cons.1 hy with rfl | hy
            · exact hw
            · exact fun hx => hw (weaker_trans hx (h2 y hy))
  · rintro ⟨a, b, rfl, h1, h2⟩
    rw [maxLast_append, maxLast_cons]
    have : keep (maxLast a Option.none) d = d := by
      cases hm : maxLast a Option.none with
      | none => rfl
      | some m =>
        rcases maxLast_mem a _ m hm with h | h
        · exact keep_some_of_nw (h1 m h)
        · cases h
    rw [this]
    exact maxLast_weak b d h2

/-! ## Insertions -/

theorem look_insertList (n : Str) (d : Decl) : ∀ (l : List (Str × Decl)) (k : Str),
    look (insertList n d l) k = if n = k then some (keep (look l k) d) else look l k
  | [], k => by simp [insertList, look, keep]
  | (a, e) :: r, k => by
    have ih := look_insertList n d r k
    simp only [insertList]
    by_cases h : a = n
    · subst h
      rw [if_pos rfl]
      by_cases hk : a = k <;> simp [look, hk, keep]
    · rw [if_neg h]
      simp only [look, ih]
      by_cases hk : a = k
      · subst hk
        rw [if_pos rfl, if_pos rfl, if_neg (fun e => h e.symm)]
      · rw [if_neg hk, if_neg hk]

theorem keys_insertList (n : Str) (d : Decl) : ∀ (l : List (Str × Decl)),
    (insertList n d l).map (·.1) = if n ∈ l.map (·.1) then l.map (·.1) else l.map (·.1) ++ [n]
  | [] => by simp [insertList]
  | (a, e) :: r => by
    have ih := keys_insertList n d r
    simp only [insertList]
    by_cases h : a = n
    · subst h; simp
    · rw [if_neg h]
      simp only [List.map_cons, ih, List.mem_cons]
      have : ¬ n = a := fun e => h e.symm
      simp only [this, false_or]
      split <;> rfl

theorem nk_insertList (n : Str) (d : Decl) {l : List (Str × Decl)} (h : Nk l) : Nk (insertList n d l) := by
  unfold Nk at *
  rw [keys_insertList]
  split
  · exact h
  · rename_i hn
    rw [List.nodup_append]
    refine ⟨h, by simp, ?_⟩
    intro a ha b hb e
    simp at hb
    subst hb; subst e
    exact hn ha

/-- several insertions -/
def insL (mk : Val → Decl) (ins : List (Str × Val)) (l : List (Str × Decl)) : List (Str × Decl) :=
  ins.foldl (fun l e => insertList e.1 (mk e.2) l) l

theorem insL_append (mk : Val → Decl) (a b : List (Str × Val)) (l : List (Str × Decl)) :
    insL mk (a ++ b) l = insL mk b (insL mk a l) := by simp [insL]

theorem nk_insL (mk : Val → Decl) (ins : List (Str × Val)) : ∀ {l : List (Str × Decl)}, Nk l → Nk (insL mk ins l) := by
  induction ins with
  | nil => intro l h; exact h
  | cons e r ih => intro l h; exact ih (nk_insertList _ _ h)

theorem look_insL {mk : Val → Decl} (ht : ∀ v w, Tied (mk v) (mk w)) (k : Str) :
    ∀ (ins : List (Str × Val)) (l : List (Str × Decl)),
      look (insL mk ins l) k = match look ins.reverse k with
        | Option.none => look l k
        | some v => some (keep (look l k) (mk v))
  | [], l => by simp [insL, look]
  | (n, v) :: r, l => by
    have ih := look_insL ht k r (insertList n (mk v) l)
    have : insL mk ((n, v) :: r) l = insL mk r (insertList n (mk v) l) := rfl
    rw [this, ih, List.reverse_cons, look_append]
    cases hr : look r.reverse k with
    | some w =>
      simp only [Option.some_or, look_insertList]
      by_cases hk : n = k
      · rw [if_pos hk, keep_tied (ht v w)]
      · rw [if_neg hk]
    | none =>
      simp only [Option.none_or, look, look_insertList]
      by_cases hk : n = k
      · simp [hk]
      · simp [hk]

theorem declOf_tied (fl : FixList) (v w : Val) : Tied (fl.declOf v) (fl.declOf w) := by
  unfold FixList.declOf
  cases fl.info <;> simp [Tied, Weaker, Decl.level, Spec3.Less]

theorem declOf_info {fl gl : FixList} (h : fl.info = gl.info) : fl.declOf = gl.declOf := by
  funext v; simp [FixList.declOf, h]

theorem insertAll_eq (names : List Str) (v : Val) : ∀ (fl : FixList),
    (fl.insertAll names v).list = insL fl.declOf (names.map (·, v)) fl.list ∧
    (fl.insertAll names v).info = fl.info ∧ (fl.insertAll names v).mults = fl.mults := by
  induction names with
  | nil => intro fl; exact ⟨rfl, rfl, rfl⟩
  | cons n r ih =>
    intro fl
    have := ih (fl.insert n v)
    exact ⟨this.1, this.2.1, this.2.2⟩

theorem foldInsert_eq (ins : List (Str × Val)) : ∀ (fl : FixList),
    (ins.foldl (fun fl e => fl.insert e.1 e.2) fl).list = insL fl.declOf ins fl.list ∧
    (ins.foldl (fun fl e => fl.insert e.1 e.2) fl).info = fl.info := by
  induction ins with
  | nil => intro fl; exact ⟨rfl, rfl⟩
  | cons n r ih =>
    intro fl
    have := ih (fl.insert n.1 n.2)
    exact ⟨this.1, this.2⟩

/-- the step a shorthand's list is at -/
def cnt (q : Quad) (fl : FixList) : Nat := (look fl.mults q.name).getD 0

/-- from `fl` to `gl` these insertions were made, and the step is `n` -/
structure Ran (q : Quad) (ins : List (Str × Val)) (n : Nat) (fl gl : FixList) : Prop where
  list : gl.list = insL fl.declOf ins fl.list
  info : gl.info = fl.info
  cnt : cnt q gl = n

theorem Ran.trans {q : Quad} {i j : List (Str × Val)} {n m : Nat} {a b c : FixList} (h : Ran q i n a b)
    (k : Ran q j m b c) : Ran q (i ++ j) m a c where
  list := by rw [k.list, h.list, insL_append, declOf_info h.info]
  info := by rw [k.info, h.info]
  cnt := k.cnt

theorem Ran.refl (q : Quad) (fl : FixList) : Ran q [] (Cascade.cnt q fl) fl fl := ⟨rfl, rfl, rfl⟩

theorem step_ran (q : Quad) (v : Val) (fl : FixList) :
    Ran q (((quadNames q.order (cnt q fl)).getD []).map (·, v))
      (if (quadNames q.order (cnt q fl)).isSome then cnt q fl + 1 else cnt q fl) fl (q.step v fl) := by
  have e : q.step v fl = match quadNames q.order (cnt q fl) with
    | Option.none => fl
    | some names => ({ fl with mults := put fl.mults q.name (cnt q fl + 1) } : FixList).insertAll names v := rfl
  rw [e]
  cases h : quadNames q.order (cnt q fl) with
  | none => exact Ran.refl q fl
  | some names =>
    have := insertAll_eq names v { fl with mults := put fl.mults q.name (cnt q fl + 1) }
    refine ⟨this.1, this.2.1, ?_⟩
    show (look _ q.name).getD 0 = _
    rw [this.2.2]
    simp only [look_put, if_true, Option.getD_some, Option.isSome_some]

theorem stepAll_ran (q : Quad) (v : Val) (n : Nat) :
    ∃ ins m, ∀ fl, cnt q fl = n → Ran q ins m fl (q.stepAll v fl) := by
  unfold Quad.stepAll
  by_cases hg : q.group = true
  · simp only [hg, if_true]
    generalize q.alts = alts
    induction alts generalizing n with
    | nil => exact ⟨[], n, fun fl h => h ▸ Ran.refl q fl⟩
    | cons a r ih =>
      by_cases ha : a v = true
      · obtain ⟨i, m, h⟩ := ih (if (quadNames q.order n).isSome then n + 1 else n)
        refine ⟨((quadNames q.order n).getD []).map (·, v) ++ i, m, ?_⟩
        intro fl hc
        subst hc
        have s := step_ran q v fl
        simp only [List.foldl_cons, ha, if_true]
        exact s.trans (h _ s.cnt)
      · obtain ⟨i, m, h⟩ := ih n
        refine ⟨i, m, fun fl hc => ?_⟩
        simp only [List.foldl_cons, ha]
        exact h fl hc
  · simp only [hg]
    exact ⟨[], n, fun fl h => h ▸ Ran.refl q fl⟩

theorem loop_ran (q : Quad) : ∀ (r : List Val) (k n : Nat),
    ∃ ok ins m, ∀ fl, cnt q fl = n → (q.loop k r fl).1 = ok ∧ Ran q ins m fl (q.loop k r fl).2
  | [], k, n => ⟨false, [], n, fun fl h => ⟨rfl, h ▸ Ran.refl q fl⟩⟩
  | v :: r, k, n => by
    by_cases ha : q.accepts v = true
    · obtain ⟨i, m, h⟩ := stepAll_ran q v n
      by_cases hr : r.isEmpty = true
      · exact ⟨true, i, m, fun fl hc => by simpa [Quad.loop, ha, hr] using h fl hc⟩
      · by_cases hk : k + 1 = 4
        · exact ⟨false, i, m, fun fl hc => by simpa [Quad.loop, ha, hr, hk] using h fl hc⟩
        · obtain ⟨ok, j, m', h'⟩ := loop_ran q r (k + 1) m
          refine ⟨ok, i ++ j, m', fun fl hc => ?_⟩
          have h1 := h fl hc
          have h2 := h' _ h1.cnt
          have e : q.loop k (v :: r) fl = q.loop (k + 1) r (q.stepAll v fl) := by
            simp [Quad.loop, ha, hr, hk]
          rw [e]
          exact ⟨h2.1, h1.trans h2.2⟩
    · refine ⟨false, [], n, fun fl hc => ?_⟩
      have e : q.loop k (v :: r) fl = (false, fl) := by simp [Quad.loop, ha]
      rw [e]
      exact ⟨rfl, hc ▸ Ran.refl q fl⟩

/-- a list that is at the first step of the shorthand `df`, if it is a one- to four-value one -/
def Fresh (df : Definition) (fl : FixList) : Prop :=
  match df with
  | .quad q => cnt q fl = 0
  | _ => True

/-- whether the values are accepted and which insertions are made does not depend on the list -/
theorem run_ran (df : Definition) (v : List Val) :
    ∃ ok ins, ∀ fl, Fresh df fl → (df.run v fl).1 = ok ∧ (df.run v fl).2.info = fl.info ∧
      (df.run v fl).2.list = insL fl.declOf ins fl.list := by
  by_cases hf : isFree v = true
  · exact ⟨true, [], fun fl _ => by simp [Definition.run, hf, insL]⟩
  · cases df with
    | plain w => exact ⟨w v, [], fun fl _ => by simp [Definition.run, hf, insL]⟩
    | quad q =>
      obtain ⟨ok, ins, m, h⟩ := loop_ran q v 0 0
      refine ⟨ok, ins, fun fl hc => ?_⟩
      have := h fl hc
      have e : (Definition.quad q).run v fl = q.loop 0 v fl := by simp [Definition.run, hf]
      rw [e]
      exact ⟨this.1, this.2.info, this.2.list⟩
    | other run =>
      refine ⟨(run v).1, (run v).2, fun fl _ => ?_⟩
      have := foldInsert_eq (run v).2 fl
      simp only [Definition.run, hf]
      exact ⟨rfl, this.2, this.1⟩

theorem fresh_new (df : Definition) : Fresh df .new := by
  cases df <;> simp [Fresh, cnt, FixList.new, look]

theorem look_mapVal (l : List (Str × Decl)) (k : Str) :
    look (l.map fun e => (e.1, e.2.value)) k = (look l k).map (·.value) := by
  induction l with
  | nil => rfl
  | cons e r ih =>
    obtain ⟨a, d⟩ := e
    simp only [List.map_cons, look, ih]
    split <;> rfl

theorem nk_sets (df : Definition) (v : Val) : Nk (df.sets v) := by
  obtain ⟨ok, ins, h⟩ := run_ran df v.slice
  have h := (h .new (fresh_new df)).2.2
  unfold Definition.sets Nk
  rw [h, List.map_map]
  have : Nk (insL FixList.new.declOf ins FixList.new.list) := nk_insL _ _ (by simp [FixList.new, Nk])
  simpa [Nk, Function.comp_def] using this

/-- a list after a declaration has been matched -/
theorem run_look (df : Definition) (v : Val) (fl : FixList) (hf : Fresh df fl) (k : Str) :
    ((df.run v.slice fl).1 = true ↔ df.valid v) ∧ (df.run v.slice fl).2.info = fl.info ∧
    look (df.run v.slice fl).2.list k = (match look (df.sets v) k with
      | Option.none => look fl.list k
      | some w => some (keep (look fl.list k) (fl.declOf w))) := by
  obtain ⟨ok, ins, h⟩ := run_ran df v.slice
  have h1 := h fl hf
  have h2 := h .new (fresh_new df)
  refine ⟨by unfold Definition.valid; rw [h1.1, h2.1], h1.2.1, ?_⟩
  rw [h1.2.2, look_insL (declOf_tied fl)]
  have hs : look (df.sets v) k = look ins.reverse k := by
    unfold Definition.sets
    rw [look_mapVal, h2.2.2, look_insL (declOf_tied .new)]
    cases look ins.reverse k <;> simp [FixList.new, look, keep, FixList.declOf]
  rw [hs]

theorem run_nk (df : Definition) (v : Val) (fl : FixList) (hf : Fresh df fl) (h : Nk fl.list) :
    Nk (df.run v.slice fl).2.list := by
  obtain ⟨ok, ins, h'⟩ := run_ran df v.slice
  rw [(h' fl hf).2.2]
  exact nk_insL _ _ h

end Verif.Cascade
