import Verif.Storage.Spec
import Verif.StrLemmas
import Mathlib.Tactic.Common
set_option linter.unusedVariables false
namespace Verif.Storage

/-! ## Maps -/
section Maps
variable {α β : Type} [DecidableEq α]

theorem lookup_insert (m : List (α × β)) (k k' : α) (x : β) :
    lookup (insert m k x) k' = if k = k' then some x else lookup m k' := by
  induction m with
  | nil => simp [insert, lookup]
  | cons e r ih =>
    obtain ⟨a, v⟩ := e
    simp only [insert]
    split
    · rename_i h; subst h; simp only [lookup]; split <;> rfl
    · rename_i h
      simp only [lookup, ih]
      by_cases h1 : a = k'
      · subst h1
        rw [if_pos rfl, if_neg (fun e => h e.symm), if_pos rfl]
      · rw [if_neg h1, if_neg h1]

theorem lookup_modify (m : List (α × β)) (k k' : α) (f : β → β) :
    lookup (modify m k f) k' = if k = k' then (lookup m k').map f else lookup m k' := by
  induction m with
  | nil => simp [modify, lookup]
  | cons e r ih =>
    obtain ⟨a, v⟩ := e
    simp only [modify]
    split
    · rename_i h; subst h; simp only [lookup]; split <;> simp_all
    · rename_i h
      simp only [lookup, ih]
      by_cases h1 : a = k'
      · subst h1
        rw [if_pos rfl, if_neg (fun e => h e.symm), if_pos rfl]
      · rw [if_neg h1, if_neg h1]

theorem lookup_filter (m : List (α × β)) (p : α → Bool) (k : α) :
    lookup (m.filter (fun e => p e.1)) k = if p k = true then lookup m k else none := by
  induction m with
  | nil => simp [lookup]
  | cons e r ih =>
    obtain ⟨a, v⟩ := e
    rw [List.filter_cons]
    by_cases hp : p a = true
    · rw [if_pos hp]
      simp only [lookup, ih]
      by_cases h1 : a = k
      · subst h1; simp [hp]
      · rw [if_neg h1, if_neg h1]
    · rw [if_neg hp, ih]
      simp only [lookup]
      by_cases h1 : a = k
      · subst h1; simp [hp]
      · rw [if_neg h1]

theorem lookup_erase (m : List (α × β)) (k k' : α) :
    lookup (erase m k) k' = if k' = k then none else lookup m k' := by
  unfold erase
  have := lookup_filter m (fun a => decide (a ≠ k)) k'
  rw [this]
  by_cases h : k' = k <;> simp [h]

theorem lookup_append (m m' : List (α × β)) (k : α) :
    lookup (m ++ m') k = (lookup m k).or (lookup m' k) := by
  induction m with
  | nil => simp [lookup]
  | cons e r ih =>
    obtain ⟨a, v⟩ := e
    simp only [List.cons_append, lookup]
    split
    · simp
    · exact ih

theorem mem_of_lookup {m : List (α × β)} {k : α} {x : β} (h : lookup m k = some x) : (k, x) ∈ m := by
  induction m with
  | nil => simp [lookup] at h
  | cons e r ih =>
    obtain ⟨a, v⟩ := e
    simp only [lookup] at h
    split at h
    · rename_i hk; simp at h; simp [hk, h]
    · simp [ih h]

theorem mem_keys_iff (m : List (α × β)) (k : α) : k ∈ m.map (·.1) ↔ (lookup m k).isSome = true := by
  induction m with
  | nil => simp [lookup]
  | cons e r ih =>
    obtain ⟨a, v⟩ := e
    simp only [List.map_cons, List.mem_cons, lookup]
    by_cases h : a = k
    · subst h; simp
    · rw [if_neg h, ← ih]
      constructor
      · rintro (rfl | h')
        · exact absurd rfl h
        · exact h'
      · exact Or.inr

abbrev Nk (m : List (α × β)) : Prop := (m.map (·.1)).Nodup

theorem nk_insert {m : List (α × β)} (h : Nk m) (k : α) (x : β) : Nk (insert m k x) := by
  induction m with
  | nil => simp [insert, Nk]
  | cons e r ih =>
    obtain ⟨a, v⟩ := e
    simp only [Nk, List.map_cons, List.nodup_cons] at h
    simp only [insert]
    split
    · simpa [Nk] using h
    · rename_i hk
      simp only [Nk, List.map_cons, List.nodup_cons]
      refine ⟨?_, ih h.2⟩
      rw [mem_keys_iff, lookup_insert, if_neg (fun e => hk e.symm), ← mem_keys_iff]
      exact h.1

theorem keys_modify (m : List (α × β)) (k : α) (f : β → β) : (modify m k f).map (·.1) = m.map (·.1) := by
  induction m with
  | nil => rfl
  | cons e r ih =>
    obtain ⟨a, v⟩ := e
    simp only [modify]
    split
    · rfl
    · simp [ih]

theorem mem_modify {m : List (α × β)} {k : α} {f : β → β} {e : α × β} (h : e ∈ modify m k f) :
    e ∈ m ∨ ∃ v, (e.1, v) ∈ m ∧ e.2 = f v := by
  induction m with
  | nil => simp [modify] at h
  | cons a r ih =>
    obtain ⟨a, v⟩ := a
    simp only [modify] at h
    split at h
    · rcases List.mem_cons.mp h with rfl | h
      · right; exact ⟨v, by simp, rfl⟩
      · left; simp [h]
    · rcases List.mem_cons.mp h with rfl | h
      · left; simp
      · rcases ih h with h | ⟨v', h, h'⟩
        · left; simp [h]
        · right; exact ⟨v', by simp [h], h'⟩

omit [DecidableEq α] in
theorem nk_filter {m : List (α × β)} (h : Nk m) (p : α × β → Bool) : Nk (m.filter p) :=
  List.Nodup.sublist (List.Sublist.map _ List.filter_sublist) h

end Maps

/-! ## Addresses -/

def addrOf (st : St) : Ident → Option Inner
  | .loc z p o => if st.useSql = true then some (.sql z p.text o.ascii) else (lookup st.areas (z, p, o)).map .mem
  | .ses z t p o => some (.sess (sessKey z t p o))

def alive (st : St) : Inner → Bool
  | .mem i => decide (i < st.maps.length)
  | .sql _ _ _ => true
  | .sess sk => (lookup st.sess sk).isSome

structure Good (st : St) : Prop where
  areasKeys : Nk st.areas
  areasIdx : (st.areas.map (·.2)).Nodup
  areasLt : ∀ e ∈ st.areas, e.2 < st.maps.length
  maps : ∀ m ∈ st.maps, Nk m
  rows : Nk st.rows
  sess : Nk st.sess
  sessMaps : ∀ e ∈ st.sess, Nk e.2
  addr : ∀ a ∈ st.handles, addrOf st a.ident = some a.inner

/-! ### The text forms tell plain identities apart -/

theorem host_text_inj {h h' : Host} (hk : h.Ok) (hk' : h'.Ok) (he : h.text = h'.text) : h = h' := by
  cases h <;> cases h' <;> simp [Host.text, Host.Ok] at *
  · exact he
  · exact hk.2 (by rw [he]; simp)
  · exact hk'.2 (by rw [← he]; simp)
  · exact he

theorem digits_no_colon (p : Nat) : ∀ c ∈ Nat.toDigits 10 p, c ≠ ':' ∧ c ≠ ']' := by
  intro c hc
  have h := Nat.isDigit_of_mem_toDigits (by omega) (by omega) hc
  constructor <;> (rintro rfl; revert h; decide)

/-- a `host:port` text has one reading -/
theorem hostport_inj {h h' : Host} (hk : h.Ok) (hk' : h'.Ok) (d d' : Str)
    (hd : ∀ c ∈ d, c ≠ ':' ∧ c ≠ ']') (hd' : ∀ c ∈ d', c ≠ ':' ∧ c ≠ ']') :
    (h.text ++ ':' :: d = h'.text ++ ':' :: d' → h = h' ∧ d = d') ∧ h.text ++ ':' :: d ≠ h'.text := by
  have split : ∀ (a b : Str) (c : Char) (x y : Str), c ∉ a → c ∉ b → a ++ c :: x = b ++ c :: y → a = b ∧ x = y := by
    intro a
    induction a with
    | nil =>
      intro b c x y _ hb he
      cases b with
      | nil => simp at he; exact ⟨rfl, he⟩
      | cons q r => simp at he; exact absurd (by simp [he.1]) hb
    | cons p r ih =>
      intro b c x y ha hb he
      cases b with
      | nil => simp at he; exact absurd (by simp [he.1]) ha
      | cons q r' =>
        simp at he
        have := ih r' c x y (fun h => ha (by simp [h])) (fun h => hb (by simp [h])) he.2
        exact ⟨by rw [he.1, this.1], this.2⟩
  constructor
  · intro he
    cases h with
    | name s =>
      cases h' with
      | name s' =>
        simp only [Host.text] at he
        have := split s s' ':' d d' hk.1 hk'.1 he
        exact ⟨by rw [this.1], this.2⟩
      | v6 a' =>
        simp only [Host.text] at he
        cases s with
        | nil => simp at he
        | cons q r => simp at he; exact absurd (by simp [he.1]) hk.2
    | v6 a =>
      cases h' with
      | name s' =>
        simp only [Host.text] at he
        cases s' with
        | nil => simp at he
        | cons q r => simp at he; exact absurd (by rw [← he.1]; simp) hk'.2
      | v6 a' =>
        simp only [Host.text, List.cons_append, List.append_assoc, List.nil_append, List.cons.injEq, true_and] at he
        have := split a a' ']' _ _ hk hk' he
        exact ⟨by rw [this.1], by simpa using this.2⟩
  · intro he
    cases h with
    | name s =>
      cases h' with
      | name s' =>
        simp only [Host.text] at he
        exact hk'.1 (by rw [← he]; simp)
      | v6 a' =>
        simp only [Host.text] at he
        cases s with
        | nil => simp at he
        | cons q r => simp at he; exact absurd (by simp [he.1]) hk.2
    | v6 a =>
      cases h' with
      | name s' =>
        simp only [Host.text] at he
        cases s' with
        | nil => simp at he
        | cons q r => simp at he; exact absurd (by rw [← he.1]; simp) hk'.2
      | v6 a' =>
        simp only [Host.text, List.cons_append, List.append_assoc, List.nil_append, List.cons.injEq, true_and] at he
        have := split a a' ']' _ _ hk hk' he
        simp at this

theorem toDigits_inj {a b : Nat} (h : Nat.toDigits 10 a = Nat.toDigits 10 b) : a = b := by
  have h1 := Nat.ofDigitChars_ten_toDigits (n := a)
  have h2 := Nat.ofDigitChars_ten_toDigits (n := b)
  rw [← h1, ← h2, h]

theorem ascii_inj {o o' : Origin} (hk : o.Tuple) (hk' : o'.Tuple) (he : o.ascii = o'.ascii) : o = o' := by
  cases o with
  | opaq n => exact absurd hk id
  | tuple s h p =>
    cases o' with
    | opaq n => exact absurd hk' id
    | tuple s' h' p' =>
      have hs : ∀ (a b : Str) (x y : Str), ':' ∉ a → ':' ∉ b → a ++ "://".toList ++ x = b ++ "://".toList ++ y →
          a = b ∧ x = y := by
        intro a
        induction a with
        | nil =>
          intro b x y _ hb he
          cases b with
          | nil => simp at he; exact ⟨rfl, he⟩
          | cons q r => simp at he; exact absurd (by rw [← he.1]; simp) hb
        | cons c r ih =>
          intro b x y ha hb he
          cases b with
          | nil => simp at he; exact absurd (by simp [he.1]) ha
          | cons q r' =>
            simp at he
            have := ih r' x y (fun h => ha (by simp [h])) (fun h => hb (by simp [h])) (by simpa using he.2)
            exact ⟨by rw [he.1, this.1], this.2⟩
      have hp := hostport_inj hk.2 hk'.2 _ _ (digits_no_colon p) (digits_no_colon p')
      have hp' := hostport_inj hk'.2 hk.2 _ _ (digits_no_colon p') (digits_no_colon p)
      simp only [Origin.ascii] at he
      by_cases hd : defaultPort s = some p
      · rw [if_pos hd] at he
        by_cases hd' : defaultPort s' = some p'
        · rw [if_pos hd'] at he
          obtain ⟨h1, h2⟩ := hs _ _ _ _ hk.1 hk'.1 he
          have h3 := host_text_inj hk.2 hk'.2 h2
          subst h1; subst h3
          rw [hd] at hd'
          simp at hd'
          rw [hd']
        · rw [if_neg hd', List.append_assoc (s' ++ _)] at he
          obtain ⟨h1, h2⟩ := hs _ _ _ _ hk.1 hk'.1 he
          exact absurd h2.symm hp'.2
      · rw [if_neg hd, List.append_assoc (s ++ _)] at he
        by_cases hd' : defaultPort s' = some p'
        · rw [if_pos hd'] at he
          obtain ⟨h1, h2⟩ := hs _ _ _ _ hk.1 hk'.1 he
          exact absurd h2 hp.2
        · rw [if_neg hd', List.append_assoc (s' ++ _)] at he
          obtain ⟨h1, h2⟩ := hs _ _ _ _ hk.1 hk'.1 he
          obtain ⟨h3, h4⟩ := hp.1 h2
          rw [h1, h3, toDigits_inj h4]

theorem part_text_inj {p p' : Part} (hk : p.Plain) (hk' : p'.Plain) (he : p.text = p'.text) : p = p' := by
  cases p <;> cases p' <;> simp only [Part.text, Part.Plain] at *
  · simp at he
  · exact absurd he.symm hk'.1
  · simp at he
  · rw [ascii_inj hk hk' (List.append_cancel_left he)]
  · exact absurd ⟨_, he⟩ hk'.2
  · exact absurd he hk.1
  · exact absurd ⟨_, he.symm⟩ hk.2
  · rw [he]

theorem addr_inj {st : St} (hg : Good st) {i j : Ident} (hi : Safe st.useSql i) (hj : Safe st.useSql j)
    {a : Inner} (ha : addrOf st i = some a) (hb : addrOf st j = some a) : i = j := by
  cases i with
  | loc z p o =>
    cases j with
    | loc z' p' o' =>
      simp only [addrOf] at ha hb
      split at ha
      · rename_i hu
        rw [if_pos hu] at hb
        simp only [Option.some.injEq] at ha hb
        subst ha
        simp only [Inner.sql.injEq] at hb
        have hpi : (Ident.loc z p o).Plain := by rcases hi with h | h; rw [hu] at h; simp at h; exact h
        have hpj : (Ident.loc z' p' o').Plain := by rcases hj with h | h; rw [hu] at h; simp at h; exact h
        have e1 : p' = p := part_text_inj hpj.1 hpi.1 hb.2.1
        have e2 : o' = o := ascii_inj hpj.2 hpi.2 hb.2.2
        rw [hb.1, e1, e2]
      · rename_i hu
        rw [if_neg hu] at hb
        obtain ⟨x, hx, rfl⟩ := Option.map_eq_some_iff.mp ha
        obtain ⟨y, hy, hxy⟩ := Option.map_eq_some_iff.mp hb
        simp only [Inner.mem.injEq] at hxy
        subst hxy
        have h1 := mem_of_lookup hx
        have h2 := mem_of_lookup hy
        have : ∀ (l : List ((Nat × Part × Origin) × Nat)), (l.map (·.2)).Nodup → ∀ k k' y, (k, y) ∈ l → (k', y) ∈ l → k = k' := by
          intro l
          induction l with
          | nil => simp
          | cons e r ih =>
            intro hn k k' y hk hk'
            simp only [List.map_cons, List.nodup_cons] at hn
            rcases List.mem_cons.mp hk with h | h <;> rcases List.mem_cons.mp hk' with h' | h'
            · rw [← h] at h'; simp at h'; exact h'.symm
            · exact absurd (List.mem_map.mpr ⟨_, h', by rw [← h]⟩) hn.1
            · exact absurd (List.mem_map.mpr ⟨_, h, by rw [← h']⟩) hn.1
            · exact ih hn.2 k k' y h h'
        have := this _ hg.areasIdx _ _ _ h1 h2
        simp only [Prod.mk.injEq] at this
        rw [this.1, this.2.1, this.2.2]
    | ses z' t' p' o' =>
      simp only [addrOf] at ha hb
      simp only [Option.some.injEq] at hb
      subst hb
      split at ha
      · simp at ha
      · obtain ⟨x, hx, h⟩ := Option.map_eq_some_iff.mp ha; simp at h
  | ses z t p o =>
    cases j with
    | loc z' p' o' =>
      simp only [addrOf] at ha hb
      simp only [Option.some.injEq] at ha
      subst ha
      split at hb
      · simp at hb
      · obtain ⟨x, hx, h⟩ := Option.map_eq_some_iff.mp hb; simp at h
    | ses z' t' p' o' =>
      simp only [addrOf, Option.some.injEq] at ha hb
      subst ha
      simp only [Inner.sess.injEq, sessKey, Prod.mk.injEq] at hb
      have e1 : p' = p := part_text_inj hj.1 hi.1 hb.2.2.1
      have e2 : o' = o := ascii_inj hj.2 hi.2 hb.2.2.2
      rw [hb.1, hb.2.1, e1, e2]

/-! ### What a write changes -/

/-- a change of the map behind one address is not seen through another -/
theorem innerGet_ne {st : St} {a a' : Inner} (hne : a' ≠ a) (k k' v : Str) :
    innerGet (innerSet st a k v) a' k' = innerGet st a' k' ∧
    innerGet (innerRemove st a k) a' k' = innerGet st a' k' ∧
    innerGet (innerClear st a) a' k' = innerGet st a' k' := by
  cases a with
  | mem i =>
    cases a' with
    | mem j =>
      have hij : i ≠ j := fun e => hne (by rw [e])
      refine ⟨?_, ?_, ?_⟩ <;> simp only [innerSet, innerRemove, innerClear, innerGet] <;>
        rw [List.getElem?_modify_ne _ _ hij]
    | sql => exact ⟨rfl, rfl, rfl⟩
    | sess => exact ⟨rfl, rfl, rfl⟩
  | sql z p o =>
    cases a' with
    | mem => exact ⟨rfl, rfl, rfl⟩
    | sess => exact ⟨rfl, rfl, rfl⟩
    | sql z' p' o' =>
      have h : (z', p', o') ≠ (z, p, o) := by
        intro e
        simp only [Prod.mk.injEq] at e
        exact hne (by rw [e.1, e.2.1, e.2.2])
      have h2 : ((z', p', o'), k') ≠ ((z, p, o), k) := fun e => h (by rw [Prod.mk.injEq] at e; exact e.1)
      refine ⟨?_, ?_, ?_⟩ <;> simp only [innerSet, innerRemove, innerClear, innerGet]
      · rw [lookup_insert, if_neg (fun e => h2 e.symm)]
      · rw [lookup_erase, if_neg h2]
      · have := lookup_filter st.rows (fun rk => decide (rk.1 ≠ (z, p, o))) ((z', p', o'), k')
        rw [this, if_pos]
        simp only [decide_eq_true_eq]
        exact h
  | sess sk =>
    cases a' with
    | mem => exact ⟨rfl, rfl, rfl⟩
    | sql => exact ⟨rfl, rfl, rfl⟩
    | sess sk' =>
      have h : sk ≠ sk' := fun e => hne (by rw [e])
      refine ⟨?_, ?_, ?_⟩ <;> simp only [innerSet, innerRemove, innerClear, innerGet] <;>
        rw [lookup_modify, if_neg h]

theorem innerGet_set_same (st : St) (a : Inner) (k k' v : Str) :
    innerGet (innerSet st a k v) a k' = if k' = k ∧ alive st a = true then some v else innerGet st a k' := by
  have hk : (k' = k ∧ alive st a = true) ↔ (k = k' ∧ alive st a = true) :=
    ⟨fun h => ⟨h.1.symm, h.2⟩, fun h => ⟨h.1.symm, h.2⟩⟩
  cases a with
  | mem i =>
    simp only [innerSet, innerGet]
    rw [List.getElem?_modify_eq]
    by_cases hl : i < st.maps.length
    · have hal : alive st (.mem i) = true := by simp [alive, hl]
      simp only [List.getElem?_eq_getElem hl, Option.map_eq_map, Option.map_some, Option.bind_some, lookup_insert]
      by_cases h : k = k'
      · rw [if_pos h, if_pos ⟨h.symm, hal⟩]
      · rw [if_neg h, if_neg (fun e => h e.1.symm)]
    · have hal : ¬ alive st (.mem i) = true := by simp [alive]; omega
      have h1 : st.maps[i]? = none := List.getElem?_eq_none (by omega)
      rw [if_neg (fun e => hal e.2), h1]
      rfl
  | sql z p o =>
    have hal : alive st (.sql z p o) = true := rfl
    simp only [innerSet, innerGet]
    rw [lookup_insert]
    by_cases h : k = k'
    · rw [if_pos (by rw [h]), if_pos ⟨h.symm, hal⟩]
    · rw [if_neg (fun e => h (by simp only [Prod.mk.injEq] at e; exact e.2)), if_neg (fun e => h e.1.symm)]
  | sess sk =>
    simp only [innerSet, innerGet]
    rw [lookup_modify, if_pos rfl]
    cases hl : lookup st.sess sk with
    | none =>
      have hal : ¬ alive st (.sess sk) = true := by simp [alive, hl]
      rw [if_neg (fun e => hal e.2)]
      rfl
    | some m =>
      have hal : alive st (.sess sk) = true := by simp [alive, hl]
      simp only [Option.map_some, Option.bind_some, lookup_insert]
      by_cases h : k = k'
      · rw [if_pos h, if_pos ⟨h.symm, hal⟩]
      · rw [if_neg h, if_neg (fun e => h e.1.symm)]

theorem innerGet_remove_same (st : St) (a : Inner) (k k' : Str) :
    innerGet (innerRemove st a k) a k' = if k' = k then none else innerGet st a k' := by
  cases a with
  | mem i =>
    simp only [innerRemove, innerGet]
    rw [List.getElem?_modify_eq]
    cases hm : st.maps[i]? with
    | none => simp
    | some m => simp only [Option.map_eq_map, Option.map_some, Option.bind_some, lookup_erase]
  | sql z p o =>
    simp only [innerRemove, innerGet]
    rw [lookup_erase]
    by_cases h : k' = k
    · rw [if_pos (by rw [h]), if_pos h]
    · rw [if_neg (fun e => h (by simp only [Prod.mk.injEq] at e; exact e.2)), if_neg h]
  | sess sk =>
    simp only [innerRemove, innerGet]
    rw [lookup_modify, if_pos rfl]
    cases hl : lookup st.sess sk with
    | none => simp
    | some m => simp only [Option.map_some, Option.bind_some, lookup_erase]

theorem innerGet_clear_same (st : St) (a : Inner) (k' : Str) : innerGet (innerClear st a) a k' = none := by
  cases a with
  | mem i =>
    simp only [innerClear, innerGet]
    rw [List.getElem?_modify_eq]
    cases hm : st.maps[i]? <;> simp [lookup]
  | sql z p o =>
    simp only [innerClear, innerGet]
    have := lookup_filter st.rows (fun rk => decide (rk.1 ≠ (z, p, o))) ((z, p, o), k')
    rw [this, if_neg (by simp)]
  | sess sk =>
    simp only [innerClear, innerGet]
    rw [lookup_modify, if_pos rfl]
    cases hl : lookup st.sess sk <;> simp [lookup]

theorem innerGet_set (st : St) (a a' : Inner) (k k' v : Str) :
    innerGet (innerSet st a k v) a' k' =
      if a' = a ∧ k' = k ∧ alive st a = true then some v else innerGet st a' k' := by
  by_cases h : a' = a
  · subst h
    rw [innerGet_set_same]
    by_cases h2 : k' = k ∧ alive st a' = true
    · rw [if_pos h2, if_pos ⟨rfl, h2⟩]
    · rw [if_neg h2, if_neg (fun e => h2 e.2)]
  · rw [(innerGet_ne h k k' v).1, if_neg (fun e => h e.1)]

theorem innerGet_remove (st : St) (a a' : Inner) (k k' : Str) :
    innerGet (innerRemove st a k) a' k' = if a' = a ∧ k' = k then none else innerGet st a' k' := by
  by_cases h : a' = a
  · subst h
    rw [innerGet_remove_same]
    by_cases h2 : k' = k
    · rw [if_pos h2, if_pos ⟨rfl, h2⟩]
    · rw [if_neg h2, if_neg (fun e => h2 e.2)]
  · rw [(innerGet_ne h k k' []).2.1, if_neg (fun e => h e.1)]

theorem innerGet_clear (st : St) (a a' : Inner) (k' : Str) :
    innerGet (innerClear st a) a' k' = if a' = a then none else innerGet st a' k' := by
  by_cases h : a' = a
  · subst h
    rw [innerGet_clear_same, if_pos rfl]
  · rw [(innerGet_ne h [] k' []).2.2, if_neg h]

theorem alive_set (st : St) (a b : Inner) (k v : Str) : alive (innerSet st a k v) b = alive st b := by
  cases a <;> cases b <;> first
    | rfl
    | (simp [innerSet, alive]; done)
    | (simp only [innerSet, alive]; rw [lookup_modify]; split <;> simp)

theorem alive_remove (st : St) (a b : Inner) (k : Str) : alive (innerRemove st a k) b = alive st b := by
  cases a <;> cases b <;> first
    | rfl
    | (simp [innerRemove, alive]; done)
    | (simp only [innerRemove, alive]; rw [lookup_modify]; split <;> simp)

theorem alive_clear (st : St) (a b : Inner) : alive (innerClear st a) b = alive st b := by
  cases a <;> cases b <;> first
    | rfl
    | (simp [innerClear, alive]; done)
    | (simp only [innerClear, alive]; rw [lookup_modify]; split <;> simp)

/-! ### Structural invariant -/

/-- a change of contents: everything but the stored items is kept -/
structure SameFrame (st st' : St) : Prop where
  useSql : st'.useSql = st.useSql
  areas : st'.areas = st.areas
  len : st'.maps.length = st.maps.length
  handles : st'.handles = st.handles

theorem SameFrame.addr {st st' : St} (h : SameFrame st st') (i : Ident) : addrOf st' i = addrOf st i := by
  cases i <;> simp [addrOf, h.useSql, h.areas]

theorem mem_modifyNat {γ : Type} {l : List γ} {i : Nat} {f : γ → γ} {x : γ} (h : x ∈ l.modify i f) :
    x ∈ l ∨ ∃ y ∈ l, x = f y := by
  induction l generalizing i with
  | nil => simp at h
  | cons a r ih =>
    cases i with
    | zero =>
      simp at h
      rcases h with rfl | h
      · exact Or.inr ⟨a, by simp, rfl⟩
      · exact Or.inl (by simp [h])
    | succ i =>
      simp at h
      rcases h with rfl | h
      · exact Or.inl (by simp)
      · rcases ih h with h | ⟨y, hy, hx⟩
        · exact Or.inl (by simp [h])
        · exact Or.inr ⟨y, by simp [hy], hx⟩

theorem good_change {st st' : St} (hg : Good st) (hf : SameFrame st st') (hm : ∀ m ∈ st'.maps, Nk m)
    (hr : Nk st'.rows) (hs : Nk st'.sess) (hsm : ∀ e ∈ st'.sess, Nk e.2) : Good st' where
  areasKeys := by rw [hf.areas]; exact hg.areasKeys
  areasIdx := by rw [hf.areas]; exact hg.areasIdx
  areasLt := by rw [hf.areas, hf.len]; exact hg.areasLt
  maps := hm
  rows := hr
  sess := hs
  sessMaps := hsm
  addr := by rw [hf.handles]; intro a ha; rw [hf.addr]; exact hg.addr a ha

theorem frame_publish (st : St) (e : Event) : SameFrame st (publish st e) := ⟨rfl, rfl, rfl, rfl⟩
theorem SameFrame.trans {a b c : St} (h : SameFrame a b) (h' : SameFrame b c) : SameFrame a c :=
  ⟨h'.1.trans h.1, h'.2.trans h.2, h'.3.trans h.3, h'.4.trans h.4⟩
theorem frame_set (st : St) (a : Inner) (k v : Str) : SameFrame st (innerSet st a k v) := by
  cases a <;> exact ⟨rfl, rfl, by simp [innerSet], rfl⟩
theorem frame_remove (st : St) (a : Inner) (k : Str) : SameFrame st (innerRemove st a k) := by
  cases a <;> exact ⟨rfl, rfl, by simp [innerRemove], rfl⟩
theorem frame_clear (st : St) (a : Inner) : SameFrame st (innerClear st a) := by
  cases a <;> exact ⟨rfl, rfl, by simp [innerClear], rfl⟩

theorem good_publish {st : St} (hg : Good st) (e : Event) : Good (publish st e) :=
  good_change hg (frame_publish st e) hg.maps hg.rows hg.sess hg.sessMaps

theorem nk_erase {α β : Type} [DecidableEq α] {m : List (α × β)} (h : Nk m) (k : α) : Nk (erase m k) := nk_filter h _

theorem good_mapChange {st : St} (hg : Good st) (i : Nat) (f : KV → KV) (hf : ∀ m, Nk m → Nk (f m)) :
    Good { st with maps := st.maps.modify i f } := by
  refine good_change hg ⟨rfl, rfl, by simp, rfl⟩ ?_ hg.rows hg.sess hg.sessMaps
  intro m hm
  rcases mem_modifyNat hm with h | ⟨y, hy, rfl⟩
  · exact hg.maps m h
  · exact hf y (hg.maps y hy)

theorem good_sessChange {st : St} (hg : Good st) (sk : SKey) (f : KV → KV) (hf : ∀ m, Nk m → Nk (f m)) :
    Good { st with sess := modify st.sess sk f } := by
  refine good_change hg ⟨rfl, rfl, rfl, rfl⟩ hg.maps hg.rows ?_ ?_
  · show ((modify st.sess sk f).map (·.1)).Nodup
    rw [keys_modify]; exact hg.sess
  · intro e he
    rcases mem_modify he with h | ⟨v, hv, h⟩
    · exact hg.sessMaps e h
    · rw [h]; exact hf v (hg.sessMaps _ hv)

theorem good_set {st : St} (hg : Good st) (a : Inner) (k v : Str) : Good (innerSet st a k v) := by
  cases a with
  | mem i => exact good_mapChange hg i _ (fun m hm => nk_insert hm k v)
  | sql z p o => exact good_change hg ⟨rfl, rfl, rfl, rfl⟩ hg.maps (nk_insert hg.rows _ _) hg.sess hg.sessMaps
  | sess sk => exact good_sessChange hg sk _ (fun m hm => nk_insert hm k v)

theorem good_remove {st : St} (hg : Good st) (a : Inner) (k : Str) : Good (innerRemove st a k) := by
  cases a with
  | mem i => exact good_mapChange hg i _ (fun m hm => nk_erase hm k)
  | sql z p o => exact good_change hg ⟨rfl, rfl, rfl, rfl⟩ hg.maps (nk_erase hg.rows _) hg.sess hg.sessMaps
  | sess sk => exact good_sessChange hg sk _ (fun m hm => nk_erase hm k)

theorem good_clear {st : St} (hg : Good st) (a : Inner) : Good (innerClear st a) := by
  cases a with
  | mem i => exact good_mapChange hg i _ (fun m hm => by simp [Nk])
  | sql z p o => exact good_change hg ⟨rfl, rfl, rfl, rfl⟩ hg.maps (nk_filter hg.rows _) hg.sess hg.sessMaps
  | sess sk => exact good_sessChange hg sk _ (fun m hm => by simp [Nk])

theorem good_init (u : Bool) (rows : List (RowKey × Str)) (h : Nk rows) : Good (init u rows) where
  areasKeys := by simp [init, Nk]
  areasIdx := by simp [init]
  areasLt := by simp [init]
  maps := by simp [init]
  rows := h
  sess := by simp [init, Nk]
  sessMaps := by simp [init]
  addr := by simp [init]

/-- looking up an area keeps the addresses of the others -/
theorem addr_localFor (st : St) (z : Nat) (p : Part) (o : Origin) {j : Ident} {a : Inner}
    (h : addrOf st j = some a) : addrOf (localFor st z p o) j = some a := by
  unfold localFor
  split
  · cases j <;> exact h
  · split
    · cases j <;> exact h
    · cases j with
      | ses => exact h
      | loc z' p' o' =>
        simp only [addrOf] at h ⊢
        split at h
        · rename_i hu; rw [if_pos hu]; exact h
        · rename_i hu
          rw [if_neg hu]
          obtain ⟨x, hx, rfl⟩ := Option.map_eq_some_iff.mp h
          rw [lookup_append, hx]
          rfl

theorem good_localFor {st : St} (hg : Good st) (z : Nat) (p : Part) (o : Origin) : Good (localFor st z p o) := by
  have hadd : ∀ a ∈ st.handles, addrOf (localFor st z p o) a.ident = some a.inner :=
    fun a ha => addr_localFor st z p o (hg.addr a ha)
  have hnew : addrOf (localFor st z p o) (.loc z p o) = (localFor st z p o).handles.getLast?.map (·.inner) := by
    unfold localFor
    by_cases hu : st.useSql = true
    · simp [hu, addrOf]
    · simp only [hu, if_false, Bool.false_eq_true]
      cases hl : lookup st.areas (z, p, o) with
      | some i => simp [addrOf, hl]
      | none => simp [addrOf, lookup_append, hl, lookup]
  have hh : ∀ a ∈ (localFor st z p o).handles, addrOf (localFor st z p o) a.ident = some a.inner := by
    have : ∃ x, (localFor st z p o).handles = st.handles ++ [⟨.loc z p o, x⟩] := by
      unfold localFor
      split
      · exact ⟨_, rfl⟩
      · split <;> exact ⟨_, rfl⟩
    obtain ⟨x, hx⟩ := this
    rw [hx] at hnew ⊢
    simp at hnew
    intro a ha
    rcases List.mem_append.mp ha with ha | ha
    · exact hadd a ha
    · simp at ha; subst ha; exact hnew
  unfold localFor at hh ⊢
  split
  · rename_i hu
    rw [if_pos hu] at hh
    exact ⟨hg.areasKeys, hg.areasIdx, hg.areasLt, hg.maps, hg.rows, hg.sess, hg.sessMaps, hh⟩
  · rename_i hu
    rw [if_neg hu] at hh
    split
    · rename_i i hl
      rw [hl] at hh
      exact ⟨hg.areasKeys, hg.areasIdx, hg.areasLt, hg.maps, hg.rows, hg.sess, hg.sessMaps, hh⟩
    · rename_i hl
      rw [hl] at hh
      refine ⟨?_, ?_, ?_, ?_, hg.rows, hg.sess, hg.sessMaps, hh⟩
      · simp only [Nk, List.map_append, List.map_cons, List.map_nil]
        refine List.nodup_append.mpr ⟨hg.areasKeys, by simp, ?_⟩
        intro x hx y hy hxy
        simp at hy
        subst hy; subst hxy
        rw [mem_keys_iff, hl] at hx
        simp at hx
      · simp only [List.map_append, List.map_cons, List.map_nil]
        refine List.nodup_append.mpr ⟨hg.areasIdx, by simp, ?_⟩
        intro x hx y hy hxy
        simp at hy
        obtain ⟨e, he, rfl⟩ := List.mem_map.mp hx
        have := hg.areasLt e he
        omega
      · intro e he
        simp only [List.length_append, List.length_cons, List.length_nil]
        rcases List.mem_append.mp he with he | he
        · have := hg.areasLt e he; omega
        · simp at he; subst he; simp
      · intro m hm
        rcases List.mem_append.mp hm with hm | hm
        · exact hg.maps m hm
        · simp at hm; subst hm; simp [Nk]

theorem good_sessionFor {st : St} (hg : Good st) (z t : Nat) (p : Part) (o : Origin) :
    Good (sessionFor st z t p o) := by
  unfold sessionFor
  refine ⟨hg.areasKeys, hg.areasIdx, hg.areasLt, hg.maps, hg.rows, ?_, ?_, ?_⟩
  · simp only
    split
    · exact hg.sess
    · rename_i hl
      simp only [Nk, List.map_append, List.map_cons, List.map_nil]
      refine List.nodup_append.mpr ⟨hg.sess, by simp, ?_⟩
      intro x hx y hy hxy
      simp at hy
      subst hy; subst hxy
      rw [mem_keys_iff, hl] at hx
      simp at hx
  · simp only
    split
    · exact hg.sessMaps
    · intro e he
      rcases List.mem_append.mp he with he | he
      · exact hg.sessMaps e he
      · simp at he; subst he; simp [Nk]
  · intro a ha
    simp only at ha
    rcases List.mem_append.mp ha with ha | ha
    · have := hg.addr a ha
      revert this
      cases a.ident <;> exact id
    · simp at ha; subst ha; rfl

theorem good_dropTab {st : St} (hg : Good st) (z t : Nat) : Good (dropTab st z t) :=
  good_change hg ⟨rfl, rfl, rfl, rfl⟩ hg.maps hg.rows (nk_filter hg.sess _)
    (fun e he => hg.sessMaps e (List.mem_filter.mp he).1)

theorem good_step {st : St} (hg : Good st) (op : Op) : Good (step st op) := by
  cases op with
  | localFor z p o => exact good_localFor hg z p o
  | sessionFor z t p o => exact good_sessionFor hg z t p o
  | dropTab z t => exact good_dropTab hg z t
  | set h k v =>
    simp only [step, withArea]; split
    · exact hg
    · exact good_publish (good_set hg _ k v) _
  | remove h k =>
    simp only [step, withArea]; split
    · exact hg
    · exact good_publish (good_remove hg _ k) _
  | clear h =>
    simp only [step, withArea]; split
    · exact hg
    · exact good_publish (good_clear hg _) _

theorem good_run {st : St} (hg : Good st) (ops : List Op) : Good (run st ops) := by
  induction ops generalizing st with
  | nil => exact hg
  | cons op ops ih => exact ih (good_step hg op)

/-! ### Refinement -/

def absGet (st : St) (i : Ident) (k : Str) : Option Str := (addrOf st i).bind (fun a => innerGet st a k)

structure Rel (st : St) (sp : Spec) : Prop where
  good : Good st
  handles : sp.handles = st.handles.map (·.ident)
  safe : ∀ a ∈ st.handles, Safe st.useSql a.ident
  val : ∀ i, Safe st.useSql i → ∀ k, absGet st i k = sp.val i k
  exist : ∀ i, Safe st.useSql i → ∀ a, addrOf st i = some a → alive st a = sp.exist i
  locExist : ∀ z p o, sp.exist (.loc z p o) = true

theorem innerGet_publish (st : St) (e : Event) (a : Inner) (k : Str) : innerGet (publish st e) a k = innerGet st a k := by
  cases a <;> rfl

theorem alive_publish (st : St) (e : Event) (a : Inner) : alive (publish st e) a = alive st a := by
  cases a <;> rfl

/-- a content change through a handle refines the specification's change -/
theorem rel_change {st st' : St} {sp : Spec} (h : Rel st sp) (hg' : Good st') (hf : SameFrame st st') {n : Nat} {a : Area}
    (ha : st.handles[n]? = some a) (f : (Str → Option Str) → Str → Option Str)
    (hget : ∀ b k, innerGet st' b k =
      if b = a.inner ∧ alive st a.inner = true then f (innerGet st b) k else innerGet st b k)
    (hal : ∀ b, alive st' b = alive st b) : Rel st' (sp.change n f) := by
  have hi : sp.handles[n]? = some a.ident := by rw [h.handles]; simp [ha]
  have hmem : a ∈ st.handles := List.mem_of_getElem? ha
  have haddr := h.good.addr a hmem
  have hsafe := h.safe a hmem
  have hch : sp.change n f =
      { sp with val := fun j => if j = a.ident ∧ sp.exist a.ident = true then f (sp.val j) else sp.val j } := by
    simp [Spec.change, hi]
  rw [hch]
  refine ⟨hg', by simp only; rw [hf.handles]; exact h.handles, ?_, ?_, ?_, h.locExist⟩
  · rw [hf.handles, hf.useSql]; exact h.safe
  · intro j hj k
    rw [hf.useSql] at hj
    simp only [absGet, hf.addr]
    by_cases hji : j = a.ident
    · subst hji
      rw [haddr]
      simp only [Option.bind_some, hget, true_and]
      rw [h.exist _ hsafe _ haddr]
      have hv : innerGet st a.inner = sp.val a.ident := by
        funext k'
        have := h.val _ hsafe k'
        simpa [absGet, haddr] using this
      rw [hv]
      split <;> rfl
    · have hne : ∀ b, addrOf st j = some b → b ≠ a.inner := by
        intro b hb hba
        subst hba
        exact hji (addr_inj h.good hj hsafe hb haddr)
      have hv := h.val _ hj k
      simp only [absGet] at hv
      rw [if_neg (fun hh => hji hh.1), ← hv]
      cases hb : addrOf st j with
      | none => rfl
      | some b =>
        simp only [Option.bind_some]
        rw [hget, if_neg (fun hh => hne b hb hh.1)]
  · intro j hj b hb
    rw [hf.useSql] at hj
    rw [hf.addr] at hb
    rw [hal]
    exact h.exist j hj b hb

theorem dead_get {st : St} {a : Inner} {k : Str} (h : alive st a = false) : innerGet st a k = none := by
  cases a with
  | mem i =>
    simp only [alive, decide_eq_false_iff_not] at h
    simp [innerGet, List.getElem?_eq_none (Nat.le_of_not_lt h)]
  | sql => simp [alive] at h
  | sess sk =>
    simp only [alive, Option.isSome_eq_false_iff, Option.isNone_iff_eq_none] at h
    simp [innerGet, h]

theorem rel_step {st : St} {sp : Spec} (h : Rel st sp) (op : Op)
    (hop : ∀ i, op.asks = some i → Safe st.useSql i) : Rel (step st op) (sp.step op) ∧ (step st op).useSql = st.useSql := by
  cases op with
  | localFor z p o =>
    have hi := hop _ rfl
    have hus : (localFor st z p o).useSql = st.useSql := by
      unfold localFor; split
      · rfl
      · split <;> rfl
    refine ⟨?_, hus⟩
    show Rel (localFor st z p o) { sp with handles := sp.handles ++ [.loc z p o] }
    have hg := good_localFor h.good z p o
    have hh : (localFor st z p o).handles.map (·.ident) = st.handles.map (·.ident) ++ [.loc z p o] := by
      unfold localFor; split
      · simp
      · split <;> simp
    have hget : ∀ j b, addrOf st j = some b → (∀ k, innerGet (localFor st z p o) b k = innerGet st b k) ∧
        alive (localFor st z p o) b = alive st b := by
      intro j b hb
      unfold localFor
      split
      · exact ⟨fun k => by cases b <;> rfl, by cases b <;> rfl⟩
      · split
        · exact ⟨fun k => by cases b <;> rfl, by cases b <;> rfl⟩
        · cases b with
          | sql => exact ⟨fun _ => rfl, rfl⟩
          | sess => exact ⟨fun _ => rfl, rfl⟩
          | mem i =>
            have hlt : i < st.maps.length := by
              cases j with
              | ses => simp [addrOf] at hb
              | loc z' p' o' =>
                simp only [addrOf] at hb
                split at hb
                · simp at hb
                · obtain ⟨x, hx, hxi⟩ := Option.map_eq_some_iff.mp hb
                  simp at hxi; subst hxi
                  exact h.good.areasLt _ (mem_of_lookup hx)
            refine ⟨fun k => ?_, ?_⟩
            · simp only [innerGet]; rw [List.getElem?_append_left hlt]
            · simp only [alive, List.length_append, List.length_cons, List.length_nil]
              simp [hlt, Nat.lt_succ_of_lt hlt]
    -- identities without an area so far
    have hnone : ∀ j, addrOf st j = none → ∀ b, addrOf (localFor st z p o) j = some b →
        j = .loc z p o ∧ (∀ k, innerGet (localFor st z p o) b k = none) ∧ alive (localFor st z p o) b = true := by
      intro j hj b hb
      cases j with
      | ses => simp [addrOf] at hj
      | loc z' p' o' =>
        simp only [addrOf] at hj
        split at hj
        · simp at hj
        · rename_i hu
          have hl : lookup st.areas (z', p', o') = none := by simpa using hj
          unfold localFor at hb ⊢
          rw [if_neg hu] at hb ⊢
          split at hb
          · simp [addrOf, hu, hl] at hb
          · rename_i hl'
            simp only [addrOf, hu, if_false, Bool.false_eq_true, lookup_append, hl, Option.none_or, lookup] at hb
            split at hb
            · rename_i he
              simp only [Prod.mk.injEq] at he
              obtain ⟨rfl, rfl, rfl⟩ := he
              simp at hb
              subst hb
              refine ⟨rfl, fun k => ?_, ?_⟩
              · simp [innerGet, lookup]
              · simp [alive]
            · simp at hb
    refine ⟨hg, ?_, ?_, ?_, ?_, h.locExist⟩
    · simp only; rw [hh, h.handles]
    · intro a ha
      rw [hus]
      have : a.ident ∈ (localFor st z p o).handles.map (·.ident) := List.mem_map_of_mem ha
      rw [hh] at this
      rcases List.mem_append.mp this with hm | hm
      · obtain ⟨b, hb, hbe⟩ := List.mem_map.mp hm
        rw [← hbe]; exact h.safe b hb
      · simp at hm; rw [hm]; exact hi
    · intro j hj k
      rw [hus] at hj
      have hv := h.val j hj k
      simp only
      rw [← hv]
      simp only [absGet]
      cases hb : addrOf st j with
      | some b =>
        rw [addr_localFor st z p o hb]
        exact (hget j b hb).1 k
      | none =>
        cases hb' : addrOf (localFor st z p o) j with
        | none => rfl
        | some b => exact (hnone j hb b hb').2.1 k
    · intro j hj b hb'
      rw [hus] at hj
      simp only
      cases hb : addrOf st j with
      | some b0 =>
        rw [addr_localFor st z p o hb] at hb'
        simp only [Option.some.injEq] at hb'
        subst hb'
        rw [(hget j b0 hb).2]
        exact h.exist j hj b0 hb
      | none =>
        obtain ⟨rfl, _, h3⟩ := hnone j hb b hb'
        rw [h3]
        exact (h.locExist z p o).symm
  | sessionFor z t p o =>
    have hi : Safe st.useSql (.ses z t p o) := hop _ rfl
    refine ⟨?_, rfl⟩
    show Rel (sessionFor st z t p o) { sp with
      handles := sp.handles ++ [.ses z t p o]
      exist := fun j => if j = .ses z t p o then true else sp.exist j }
    have hadd : ∀ j, addrOf (sessionFor st z t p o) j = addrOf st j := by intro j; cases j <;> rfl
    have hl : ∀ sk, lookup (sessionFor st z t p o).sess sk =
        (lookup st.sess sk).or (if sk = sessKey z t p o then some [] else none) := by
      intro sk
      simp only [sessionFor]
      cases hc : lookup st.sess (sessKey z t p o) with
      | some m =>
        simp only
        by_cases hs : sk = sessKey z t p o
        · rw [hs, hc]; rfl
        · rw [if_neg hs]; simp
      | none =>
        simp only
        rw [lookup_append]
        simp only [lookup]
        by_cases hs : sk = sessKey z t p o
        · rw [if_pos hs, if_pos hs.symm]
        · rw [if_neg hs, if_neg (fun e => hs e.symm)]
    have hget : ∀ b k, innerGet (sessionFor st z t p o) b k = innerGet st b k := by
      intro b k
      cases b with
      | mem => rfl
      | sql => rfl
      | sess sk =>
        simp only [innerGet, hl]
        cases lookup st.sess sk with
        | some m => rfl
        | none =>
          simp only [Option.none_or]
          split <;> simp [lookup]
    have hal : ∀ b, alive (sessionFor st z t p o) b =
        (alive st b || decide (b = .sess (sessKey z t p o))) := by
      intro b
      cases b with
      | mem i =>
        rw [decide_eq_false (by simp), Bool.or_false]; rfl
      | sql =>
        rw [decide_eq_false (by simp), Bool.or_false]; rfl
      | sess sk =>
        simp only [alive, hl, Inner.sess.injEq]
        by_cases hs : sk = sessKey z t p o
        · simp [hs]
        · simp [hs]
    refine ⟨good_sessionFor h.good z t p o, ?_, ?_, ?_, ?_, ?_⟩
    · simp [sessionFor, h.handles]
    · intro a ha
      simp only [sessionFor] at ha ⊢
      rcases List.mem_append.mp ha with ha | ha
      · exact h.safe a ha
      · simp at ha; subst ha; exact hi
    · intro j hj k
      have hv := h.val j hj k
      simp only [absGet, hadd] at hv ⊢
      rw [← hv]
      congr 1
      funext b
      exact hget b k
    · intro j hj b hb
      rw [hadd] at hb
      rw [hal, h.exist j hj b hb]
      simp only
      by_cases hji : j = .ses z t p o
      · subst hji
        simp only [addrOf, Option.some.injEq] at hb
        subst hb
        simp
      · have : b ≠ .sess (sessKey z t p o) := by
          rintro rfl
          exact hji (addr_inj h.good hj hi hb rfl)
        simp [this, hji]
    · intro z' p' o'; simp [h.locExist]
  | dropTab z t =>
    refine ⟨?_, rfl⟩
    show Rel (dropTab st z t) { sp with
      exist := fun j => if j.ofTab z t = true then false else sp.exist j
      val := fun j => if j.ofTab z t = true then fun _ => none else sp.val j }
    have hadd : ∀ j, addrOf (dropTab st z t) j = addrOf st j := by intro j; cases j <;> rfl
    have hl : ∀ sk : SKey, lookup (dropTab st z t).sess sk =
        if decide (sk.1 ≠ z ∨ sk.2.1 ≠ t) = true then lookup st.sess sk else none :=
      fun sk => lookup_filter st.sess (fun sk => decide (sk.1 ≠ z ∨ sk.2.1 ≠ t)) sk
    have hb : ∀ j b, addrOf st j = some b →
        (∀ k, innerGet (dropTab st z t) b k = if j.ofTab z t = true then none else innerGet st b k) ∧
        alive (dropTab st z t) b = (if j.ofTab z t = true then false else alive st b) := by
      intro j b hb
      cases j with
      | loc z' p' o' =>
        have : ∀ sk, b ≠ .sess sk := by
          rintro sk rfl
          simp only [addrOf] at hb
          split at hb
          · simp at hb
          · obtain ⟨x, _, hx⟩ := Option.map_eq_some_iff.mp hb; simp at hx
        cases b with
        | mem => exact ⟨fun _ => rfl, rfl⟩
        | sql => exact ⟨fun _ => rfl, rfl⟩
        | sess sk => exact absurd rfl (this sk)
      | ses z' t' p' o' =>
        simp only [addrOf, Option.some.injEq] at hb
        subst hb
        simp only [innerGet, alive, hl, Ident.ofTab, sessKey]
        by_cases hzt : z' = z ∧ t' = t
        · simp [hzt.1, hzt.2]
        · have : decide (z' ≠ z ∨ t' ≠ t) = true := by
            simp only [decide_eq_true_eq]
            by_contra hc
            exact hzt ⟨by by_contra h1; exact hc (Or.inl h1), by by_contra h1; exact hc (Or.inr h1)⟩
          rw [if_pos this]
          simp [hzt]
    refine ⟨good_dropTab h.good z t, h.handles, h.safe, ?_, ?_, ?_⟩
    · intro j hj k
      have hv := h.val j hj k
      simp only [absGet, hadd] at hv ⊢
      cases ha : addrOf st j with
      | none =>
        have : j.ofTab z t = false := by
          cases j with
          | loc => rfl
          | ses => simp [addrOf] at ha
        rw [ha] at hv
        simp only [this, Bool.false_eq_true, if_false]
        exact hv
      | some b =>
        rw [ha] at hv
        simp only [Option.bind_some] at hv ⊢
        rw [(hb j b ha).1 k]
        split
        · rfl
        · exact hv
    · intro j hj b ha
      rw [hadd] at ha
      rw [(hb j b ha).2, h.exist j hj b ha]
    · intro z' p' o'; simp [Ident.ofTab, h.locExist]
  | set n k v =>
    simp only [step, withArea, Spec.step]
    cases ha : st.handles[n]? with
    | none =>
      refine ⟨?_, rfl⟩
      have : sp.handles[n]? = none := by rw [h.handles]; simp [ha]
      simpa [Spec.change, this] using h
    | some a =>
      refine ⟨?_, (frame_set st a.inner k v).useSql⟩
      refine rel_change h (good_publish (good_set h.good _ k v) _) ((frame_set st _ k v).trans (frame_publish _ _)) ha _ ?_ ?_
      · intro b k'
        rw [innerGet_publish, innerGet_set]
        by_cases h1 : b = a.inner ∧ alive st a.inner = true
        · rw [if_pos h1]
          by_cases h2 : k' = k
          · rw [if_pos ⟨h1.1, h2, h1.2⟩, if_pos h2]
          · rw [if_neg (fun hh => h2 hh.2.1), if_neg h2]
        · rw [if_neg h1, if_neg (fun hh => h1 ⟨hh.1, hh.2.2⟩)]
      · intro b; rw [alive_publish, alive_set]
  | remove n k =>
    simp only [step, withArea, Spec.step]
    cases ha : st.handles[n]? with
    | none =>
      refine ⟨?_, rfl⟩
      have : sp.handles[n]? = none := by rw [h.handles]; simp [ha]
      simpa [Spec.change, this] using h
    | some a =>
      refine ⟨?_, (frame_remove st a.inner k).useSql⟩
      refine rel_change h (good_publish (good_remove h.good _ k) _) ((frame_remove st _ k).trans (frame_publish _ _)) ha _ ?_ ?_
      · intro b k'
        rw [innerGet_publish, innerGet_remove]
        by_cases h1 : b = a.inner ∧ alive st a.inner = true
        · rw [if_pos h1]
          by_cases h2 : k' = k
          · rw [if_pos ⟨h1.1, h2⟩, if_pos h2]
          · rw [if_neg (fun hh => h2 hh.2), if_neg h2]
        · rw [if_neg h1]
          split
          · rename_i h2
            rw [dead_get (by simpa using fun hh => h1 ⟨h2.1, h2.1 ▸ hh⟩)]
          · rfl
      · intro b; rw [alive_publish, alive_remove]
  | clear n =>
    simp only [step, withArea, Spec.step]
    cases ha : st.handles[n]? with
    | none =>
      refine ⟨?_, rfl⟩
      have : sp.handles[n]? = none := by rw [h.handles]; simp [ha]
      simpa [Spec.change, this] using h
    | some a =>
      refine ⟨?_, (frame_clear st a.inner).useSql⟩
      refine rel_change h (good_publish (good_clear h.good _) _) ((frame_clear st _).trans (frame_publish _ _)) ha _ ?_ ?_
      · intro b k'
        rw [innerGet_publish, innerGet_clear]
        by_cases h1 : b = a.inner ∧ alive st a.inner = true
        · rw [if_pos h1, if_pos h1.1]
        · rw [if_neg h1]
          split
          · rename_i h2
            rw [dead_get (by simpa using fun hh => h1 ⟨h2, h2 ▸ hh⟩)]
          · rfl
      · intro b; rw [alive_publish, alive_clear]

theorem rel_run {st : St} {sp : Spec} (h : Rel st sp) (ops : List Op)
    (hops : ∀ op ∈ ops, ∀ i, op.asks = some i → Safe st.useSql i) : Rel (run st ops) (sp.run ops) := by
  induction ops generalizing st sp with
  | nil => exact h
  | cons op ops ih =>
    obtain ⟨h1, h2⟩ := rel_step h op (hops op (by simp))
    exact ih h1 (fun op' ho => by rw [h2]; exact hops op' (by simp [ho]))

theorem rel_init (u : Bool) (rows : List (RowKey × Str)) (h : Nk rows) :
    Rel (init u rows) (Spec.init (stored u rows)) where
  good := good_init u rows h
  handles := rfl
  safe := by simp [init]
  val := by
    intro i _ k
    cases i with
    | loc z p o =>
      cases u with
      | true => simp [absGet, addrOf, init, Spec.init, stored, innerGet]
      | false => simp [absGet, addrOf, init, Spec.init, stored, lookup]
    | ses z t p o => simp [absGet, addrOf, init, Spec.init, innerGet, lookup]
  exist := by
    intro i _ a ha
    cases i with
    | loc z p o =>
      cases u with
      | true => simp [addrOf, init] at ha; subst ha; rfl
      | false => simp [addrOf, init, lookup] at ha
    | ses z t p o => simp [addrOf] at ha; subst ha; rfl
  locExist := fun _ _ _ => rfl

theorem getItem_eq {st : St} {sp : Spec} (h : Rel st sp) {n : Nat} {i : Ident} (hn : sp.handles[n]? = some i)
    (k : Str) : getItem st n k = sp.val i k := by
  rw [h.handles] at hn
  simp only [List.getElem?_map, Option.map_eq_some_iff] at hn
  obtain ⟨a, ha, rfl⟩ := hn
  have hm := List.mem_of_getElem? ha
  have := h.val _ (h.safe a hm) k
  rw [← this]
  simp [getItem, ha, absGet, h.good.addr a hm]

/-! ### Keys -/

theorem nodup_filter_map {m : List (RowKey × Str)} (h : Nk m) (x : Nat × Str × Str) :
    ((m.filter (fun r => decide (r.1.1 = x))).map (·.1.2)).Nodup := by
  induction m with
  | nil => simp
  | cons e r ih =>
    simp only [Nk, List.map_cons, List.nodup_cons] at h
    rw [List.filter_cons]
    split
    · rename_i hx
      simp only [List.map_cons, List.nodup_cons]
      refine ⟨?_, ih h.2⟩
      intro hm
      obtain ⟨e', he', heq⟩ := List.mem_map.mp hm
      obtain ⟨h1, h2⟩ := List.mem_filter.mp he'
      simp at hx h2
      exact h.1 (List.mem_map.mpr ⟨e', h1, Prod.ext (h2.trans hx.symm) heq⟩)
    · exact ih h.2

theorem keys_spec {st : St} (hg : Good st) (a : Inner) :
    (innerKeys st a).Nodup ∧ (∀ k, k ∈ innerKeys st a ↔ (innerGet st a k).isSome = true) ∧
    innerLen st a = (innerKeys st a).length := by
  cases a with
  | mem i =>
    simp only [innerKeys, innerGet, innerLen]
    cases hm : st.maps[i]? with
    | none => simp
    | some m =>
      simp only [Option.getD_some, Option.bind_some, Option.map_some, List.length_map, and_true]
      exact ⟨hg.maps m (List.mem_of_getElem? hm), fun k => mem_keys_iff m k⟩
  | sql z p o =>
    simp only [innerKeys, innerGet, innerLen, List.length_map, and_true]
    refine ⟨nodup_filter_map hg.rows _, fun k => ?_⟩
    rw [← mem_keys_iff]
    simp only [List.mem_map, List.mem_filter, decide_eq_true_eq]
    constructor
    · rintro ⟨e, ⟨he, hx⟩, rfl⟩
      exact ⟨e, he, Prod.ext hx rfl⟩
    · rintro ⟨e, he, hx⟩
      exact ⟨e, ⟨he, by rw [hx]⟩, by rw [hx]⟩
  | sess sk =>
    simp only [innerKeys, innerGet, innerLen]
    cases hm : lookup st.sess sk with
    | none => simp
    | some m =>
      simp only [Option.getD_some, Option.bind_some, Option.map_some, List.length_map, and_true]
      exact ⟨hg.sessMaps _ (mem_of_lookup hm), fun k => mem_keys_iff m k⟩

end Verif.Storage
