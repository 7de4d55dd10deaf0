import Verif.CssTok.Spec
import Mathlib.Tactic.Common
import Mathlib.Tactic.SplitIfs

namespace Verif.CssTok

/-! ## Suffixes -/

/-- what is left after something has been read -/
def Shorter (r s : Str) : Prop := r <:+ s ∧ r.length < s.length

theorem Shorter.suffix {r s : Str} (h : Shorter r s) : r <:+ s := h.1

theorem Shorter.trans_suffix {q r s : Str} (h : q <:+ r) (h' : Shorter r s) : Shorter q s :=
  ⟨h.trans h'.1, Nat.lt_of_le_of_lt h.length_le h'.2⟩

theorem Shorter.suffix_trans {q r s : Str} (h : Shorter q r) (h' : r <:+ s) : Shorter q s :=
  ⟨h.1.trans h', Nat.lt_of_lt_of_le h.2 h'.length_le⟩

theorem shorter_cons (c : Char) (s : Str) : Shorter s (c :: s) := ⟨List.suffix_cons c s, by simp⟩

theorem nextChar_suffix (s : Str) : (nextChar s).2 <:+ s := by
  unfold nextChar
  split
  · exact ⟨['\r', '\n'], rfl⟩
  · exact List.suffix_cons _ _
  · exact List.suffix_refl _

theorem nextChar_shorter {s : Str} (h : s ≠ []) : Shorter (nextChar s).2 s := by
  refine ⟨nextChar_suffix s, ?_⟩
  unfold nextChar
  split
  · simp only [List.length_cons]; omega
  · simp
  · exact absurd rfl h

theorem ne_nil_of_head {s : Str} {c : Char} (h : s[0]? = some c) : s ≠ [] := by
  rintro rfl
  simp at h

theorem ne_nil_of_any {s : Str} {p : Char → Bool} (h : s[0]?.any p = true) : s ≠ [] := by
  rintro rfl
  simp at h

theorem drop_suffix' (n : Nat) (s : Str) : s.drop n <:+ s := List.drop_suffix n s

theorem escaped_shorter (env : Env) {s : Str} (h : s ≠ []) : Shorter (env.escaped s).2 s := by
  have h1 := nextChar_shorter h
  unfold Env.escaped
  simp only
  split_ifs with h2 h3
  · exact ⟨List.nil_suffix, List.length_pos_iff.2 h⟩
  · exact .trans_suffix ((nextChar_suffix _).trans (drop_suffix' _ _)) h1
  · exact .trans_suffix (drop_suffix' _ _) h1

theorem skipWs_suffix (env : Env) (s : Str) : env.skipWs s <:+ s := List.dropWhile_suffix _

theorem skipWs_shorter (env : Env) {s : Str} (h : s[0]?.any env.isWs = true) : Shorter (env.skipWs s) s := by
  cases s with
  | nil => simp at h
  | cons c s =>
    have hc : env.isWs c = true := by simpa using h
    refine .trans_suffix ?_ (shorter_cons c s)
    simp only [Env.skipWs, List.dropWhile_cons, hc, if_true]
    exact List.dropWhile_suffix _

theorem skipComments_suffix (b : Bool) (s : Str) : skipComments b s <:+ s := by
  fun_induction skipComments b s with
  | case1 => exact List.suffix_refl _
  | case2 => exact List.nil_suffix
  | case3 => exact List.suffix_refl _
  | case4 _ _ _ _ ih => exact ih.trans ⟨[_, _], rfl⟩
  | case5 _ _ _ _ ih => exact ih.trans ⟨[_], rfl⟩
  | case6 _ _ _ _ _ _ ih => exact ih.trans ⟨[_, _], rfl⟩
  | case7 => exact List.suffix_refl _

/-! ## `consume_ident` -/

theorem ident_total (env : Env) (n : Nat) (s value : Str) (h : s.length < n) :
    ∃ v r, env.ident n s value = some (v, r) ∧ r <:+ s := by
  induction n generalizing s value with
  | zero => omega
  | succ n ih =>
    unfold Env.ident
    split_ifs with h1 h2 h3
    · have hs : s ≠ [] := by rintro rfl; simp [plainEscape] at h1
      have := nextChar_shorter hs
      have h' := nextChar_suffix (nextChar s).2
      obtain ⟨v, r, e, hr⟩ := ih (nextChar (nextChar s).2).2 _ (by have := h'.length_le; have := this; have := (nextChar_shorter hs).2; omega)
      exact ⟨v, r, e, hr.trans (h'.trans this.1)⟩
    · have hs : s ≠ [] := by rintro rfl; simp [isEscape] at h2
      have := escaped_shorter env hs
      obtain ⟨v, r, e, hr⟩ := ih (env.escaped s).2 _ (by have := this.2; omega)
      exact ⟨v, r, e, hr.trans this.1⟩
    · exact ⟨_, _, rfl, List.suffix_refl _⟩
    · have hs : s ≠ [] := by
        rintro rfl
        simp [toChar, Env.isIdentChar, isIdentStart, Env.isNum] at h3
      have := nextChar_shorter hs
      obtain ⟨v, r, e, hr⟩ := ih (nextChar s).2 _ (by have := this.2; omega)
      exact ⟨v, r, e, hr.trans this.1⟩

theorem ident_mono (env : Env) (n : Nat) (s value : Str) (x : Str × Str) (h : env.ident n s value = some x) :
    env.ident (n + 1) s value = some x := by
  induction n generalizing s value with
  | zero => simp [Env.ident] at h
  | succ n ih =>
    rw [Env.ident] at h
    rw [Env.ident]
    split_ifs at h ⊢ with h1 h2 h3
    · exact ih _ _ h
    · exact ih _ _ h
    · exact h
    · exact ih _ _ h

/-- an identifier that starts is not empty -/
theorem ident_shorter (env : Env) (n : Nat) (s value v r : Str) (hn : s.length < n)
    (h : env.isIdentChar (toChar s[0]?) = true ∨ isEscape 0 s = true) (e : env.ident n s value = some (v, r)) : Shorter r s := by
  cases n with
  | zero => omega
  | succ n =>
    rw [Env.ident] at e
    split_ifs at e with h1 h2 h3
    · have hs : s ≠ [] := by rintro rfl; simp [plainEscape] at h1
      have h' := nextChar_suffix (nextChar s).2
      have h'' := nextChar_shorter hs
      obtain ⟨v', r', e', hr⟩ := ident_total env n (nextChar (nextChar s).2).2 (value ++ [(nextChar (nextChar s).2).1])
        (by have := h'.length_le; have := h''.2; omega)
      rw [e] at e'; cases e'
      exact .trans_suffix (hr.trans h') h''
    · have hs : s ≠ [] := by rintro rfl; simp [isEscape] at h2
      have h'' := escaped_shorter env hs
      obtain ⟨v', r', e', hr⟩ := ident_total env n (env.escaped s).2 (value ++ [(env.escaped s).1]) (by have := h''.2; omega)
      rw [e] at e'; cases e'
      exact .trans_suffix hr h''
    · rcases h with h | h
      · simp [h] at h3
      · exact absurd h h2
    · have hs : s ≠ [] := by
        rintro rfl
        simp [toChar, Env.isIdentChar, isIdentStart, Env.isNum] at h3
      have h'' := nextChar_shorter hs
      obtain ⟨v', r', e', hr⟩ := ident_total env n (nextChar s).2 (value ++ [toChar s[0]?]) (by have := h''.2; omega)
      rw [e] at e'; cases e'
      exact .trans_suffix hr h''

theorem ident_of_starts (env : Env) {s : Str} (h : startsIdent s = true) :
    env.isIdentChar (toChar s[0]?) = true ∨ isEscape 0 s = true := by
  unfold startsIdent at h
  split_ifs at h with h1 h2
  · left
    simp only [h1, toChar, Option.getD_some]
    simp [Env.isIdentChar]
  · exact .inr h
  · left
    simp [Env.isIdentChar, h]

/-! ## `consume_string_token` -/

theorem string_total (env : Env) (q : Char) (n : Nat) (s value : Str) (h : s.length < n) :
    ∃ t r, env.string q n s value = some (t, r) ∧ r <:+ s ∧ t ≠ .eof := by
  induction n generalizing s value with
  | zero => omega
  | succ n ih =>
    unfold Env.string
    split_ifs with h1 h2 h3 h4 h5
    · exact ⟨_, _, rfl, nextChar_suffix s, by simp⟩
    · exact ⟨_, _, rfl, List.suffix_refl _, by simp⟩
    all_goals
      have hs : s ≠ [] := by
        rintro rfl
        simp at h1
      have h' := nextChar_suffix (nextChar s).2
      have h'' := nextChar_shorter hs
      have h''' := escaped_shorter env hs
    · obtain ⟨v, r, e, hr⟩ := ih (nextChar (nextChar s).2).2 value (by have := h'.length_le; have := h''.2; omega)
      exact ⟨v, r, e, hr.1.trans (h'.trans h''.1), hr.2⟩
    · obtain ⟨v, r, e, hr⟩ := ih (nextChar (nextChar s).2).2 (value ++ [(nextChar (nextChar s).2).1])
        (by have := h'.length_le; have := h''.2; omega)
      exact ⟨v, r, e, hr.1.trans (h'.trans h''.1), hr.2⟩
    · obtain ⟨v, r, e, hr⟩ := ih (env.escaped s).2 (value ++ [(env.escaped s).1]) (by have := h'''.2; omega)
      exact ⟨v, r, e, hr.1.trans h'''.1, hr.2⟩
    · obtain ⟨v, r, e, hr⟩ := ih (nextChar s).2 (value ++ [(nextChar s).1]) (by have := h''.2; omega)
      exact ⟨v, r, e, hr.1.trans h''.1, hr.2⟩

theorem string_mono (env : Env) (q : Char) (n : Nat) (s value : Str) (x : Token × Str) (h : env.string q n s value = some x) :
    env.string q (n + 1) s value = some x := by
  induction n generalizing s value with
  | zero => simp [Env.string] at h
  | succ n ih =>
    rw [Env.string] at h
    rw [Env.string]
    split_ifs at h ⊢
    all_goals first | exact h | exact ih _ _ h

/-! ## Numbers -/

theorem sign_suffix (s : Str) : (sign s).2 <:+ s := by
  unfold sign
  split
  · split_ifs
    · exact List.suffix_cons _ _
    · exact List.suffix_refl _
  · exact List.suffix_refl _

theorem digits_suffix (env : Env) (s : Str) : (env.digits s).2 <:+ s := List.dropWhile_suffix _

theorem fraction_suffix (env : Env) (s : Str) : (env.fraction s).2 <:+ s := by
  unfold Env.fraction
  split_ifs
  · exact (digits_suffix _ _).trans (drop_suffix' _ _)
  · exact List.suffix_refl _

theorem exponent_suffix (env : Env) (s : Str) : (env.exponent s).2 <:+ s := by
  unfold Env.exponent
  split_ifs
  · exact (digits_suffix _ _).trans (drop_suffix' _ _)
  · exact List.suffix_refl _

theorem number_suffix (env : Env) (s : Str) : (env.number s).2 <:+ s :=
  (exponent_suffix env _).trans ((fraction_suffix env _).trans ((digits_suffix env _).trans (sign_suffix s)))

/-- something that begins as a number does -/
def beginsNumber (env : Env) (s : Str) : Prop :=
  (s[0]? = some '+' ∨ s[0]? = some '-') ∨ s[0]?.any env.isNum = true ∨ (s[0]? = some '.' ∧ s[1]?.any env.isNum = true)

theorem number_shorter (env : Env) {s : Str} (h : beginsNumber env s) : Shorter (env.number s).2 s := by
  have step : ∀ t : Str, (env.exponent (env.fraction (env.digits t).2).2).2 <:+ t := fun t =>
    (exponent_suffix env _).trans ((fraction_suffix env _).trans (digits_suffix env t))
  cases s with
  | nil => simp [beginsNumber] at h
  | cons c s =>
    by_cases hc : c = '+' ∨ c = '-'
    · have e : sign (c :: s) = ([c], s) := by simp [sign, hc]
      refine .trans_suffix ?_ (shorter_cons c s)
      simp only [Env.number, e]
      exact step s
    · have e : sign (c :: s) = ([], c :: s) := by simp [sign, hc]
      simp only [Env.number, e]
      by_cases hn : env.isNum c = true
      · have e : (env.digits (c :: s)).2 = (env.digits s).2 := by simp [Env.digits, hn]
        refine .trans_suffix ?_ (shorter_cons c s)
        rw [e]
        exact step s
      · have e : (env.digits (c :: s)).2 = c :: s := by simp [Env.digits, hn]
        rw [e]
        rcases h with h | h | h
        · simp at h; exact absurd h hc
        · simp at h; exact absurd h hn
        · refine .trans_suffix (exponent_suffix env _) ?_
          have e : env.fraction (c :: s) = ((c :: s).take 2 ++ (env.digits ((c :: s).drop 2)).1, (env.digits ((c :: s).drop 2)).2) := by
            unfold Env.fraction
            rw [if_pos (by simpa using h)]
          rw [e]
          refine .trans_suffix ((digits_suffix _ _).trans ?_) (shorter_cons c s)
          simpa using drop_suffix' 1 s

theorem numeric_total (env : Env) (n : Nat) (s : Str) (h : s.length < n) (hb : beginsNumber env s) :
    ∃ t r, env.numeric n s = some (t, r) ∧ Shorter r s ∧ t ≠ .eof := by
  have hs := number_shorter env hb
  unfold Env.numeric
  generalize env.number s = p at hs
  obtain ⟨v, r⟩ := p
  simp only at hs ⊢
  split_ifs with h1 h2
  · obtain ⟨u, r', e, hr⟩ := ident_total env n r [] (by have := hs.2; omega)
    exact ⟨_, _, by rw [e]; rfl, .trans_suffix hr hs, by simp⟩
  · exact ⟨_, _, rfl, .trans_suffix (nextChar_suffix r) hs, by simp⟩
  · exact ⟨_, _, rfl, hs, by simp⟩

theorem map_mono {α β : Type} {a b : Option α} {f : α → β} {x : β} (h : ∀ y, a = some y → b = some y) (hx : a.map f = some x) :
    b.map f = some x := by
  cases a with
  | none => simp at hx
  | some y => rw [h y rfl]; exact hx

theorem bind_mono {α β : Type} {a b : Option α} {f g : α → Option β} {x : β} (h : ∀ y, a = some y → b = some y)
    (hf : ∀ y z, f y = some z → g y = some z) (hx : a.bind f = some x) : b.bind g = some x := by
  cases a with
  | none => simp at hx
  | some y => rw [h y rfl]; exact hf y x hx

theorem numeric_mono (env : Env) (n : Nat) (s : Str) (x : Token × Str) (h : env.numeric n s = some x) :
    env.numeric (n + 1) s = some x := by
  unfold Env.numeric at h ⊢
  generalize env.number s = p at h ⊢
  obtain ⟨v, r⟩ := p
  simp only at h ⊢
  split_ifs at h ⊢
  · exact map_mono (fun y => ident_mono env n _ _ y) h
  · exact h
  · exact h

/-! ## Unicode ranges -/

theorem unicodeRange_shorter {s : Str} (h : s ≠ []) : Shorter (unicodeRange s).2 s ∧ (unicodeRange s).1 ≠ .eof := by
  have h2 : Shorter (s.drop 2) s := ⟨drop_suffix' _ _, by have := List.length_pos_iff.2 h; simp; omega⟩
  unfold unicodeRange
  simp only
  split_ifs
  · exact ⟨.trans_suffix ((drop_suffix' _ _).trans ((drop_suffix' _ _).trans ((drop_suffix' _ _).trans (drop_suffix' _ _)))) h2, by simp⟩
  · exact ⟨.trans_suffix ((drop_suffix' _ _).trans (drop_suffix' _ _)) h2, by simp⟩

/-! ## Urls -/

theorem remnants_total (env : Env) (n : Nat) (s : Str) (h : s.length < n) : ∃ r, env.remnants n s = some r ∧ r <:+ s := by
  induction n generalizing s with
  | zero => omega
  | succ n ih =>
    unfold Env.remnants
    split
    · exact ⟨_, rfl, List.suffix_refl _⟩
    · next h1 =>
      have hs : s ≠ [] := by rintro rfl; simp at h1
      have : Shorter (nextChar (if isEscape 0 s = true then (env.escaped s).2 else s)).2 s := by
        split_ifs
        · exact .trans_suffix (nextChar_suffix _) (escaped_shorter env hs)
        · exact nextChar_shorter hs
      obtain ⟨r, e, hr⟩ := ih (nextChar (if isEscape 0 s = true then (env.escaped s).2 else s)).2 (by have := this.2; omega)
      exact ⟨r, e, hr.trans this.1⟩

theorem remnants_mono (env : Env) (n : Nat) (s r : Str) (h : env.remnants n s = some r) : env.remnants (n + 1) s = some r := by
  induction n generalizing s with
  | zero => simp [Env.remnants] at h
  | succ n ih =>
    rw [Env.remnants] at h
    rw [Env.remnants]
    by_cases h1 : (decide (s[0]? = some ')') || s.isEmpty) = true
    · rw [if_pos h1] at h ⊢; exact h
    · rw [if_neg h1] at h ⊢; exact ih _ h

theorem url_total (env : Env) (n : Nat) (s u : Str) (h : s.length + 1 < n) :
    ∃ t r, env.url n s u = some (t, r) ∧ r <:+ s ∧ t ≠ .eof := by
  induction n generalizing s u with
  | zero => omega
  | succ n ih =>
    unfold Env.url
    split_ifs with h1 h2 h3 h4 h5
    · exact ⟨_, _, rfl, nextChar_suffix s, by simp⟩
    · exact ⟨_, _, rfl, List.suffix_refl _, by simp⟩
    · have := skipWs_shorter env h3
      obtain ⟨t, r, e, hr⟩ := ih (env.skipWs s) u (by have := this.2; omega)
      exact ⟨t, r, e, hr.1.trans this.1, hr.2⟩
    · obtain ⟨r, e, hr⟩ := remnants_total env n s (by omega)
      exact ⟨_, _, by rw [e]; rfl, hr, by simp⟩
    · have hs : s ≠ [] := by rintro rfl; simp at h2
      have := escaped_shorter env hs
      obtain ⟨t, r, e, hr⟩ := ih (env.escaped s).2 (u ++ [(env.escaped s).1]) (by have := this.2; omega)
      exact ⟨t, r, e, hr.1.trans this.1, hr.2⟩
    · have hs : s ≠ [] := by rintro rfl; simp at h2
      have := nextChar_shorter hs
      obtain ⟨t, r, e, hr⟩ := ih (nextChar s).2 (u ++ [(nextChar s).1]) (by have := this.2; omega)
      exact ⟨t, r, e, hr.1.trans this.1, hr.2⟩

theorem url_mono (env : Env) (n : Nat) (s u : Str) (x : Token × Str) (h : env.url n s u = some x) : env.url (n + 1) s u = some x := by
  induction n generalizing s u with
  | zero => simp [Env.url] at h
  | succ n ih =>
    rw [Env.url] at h
    rw [Env.url]
    split_ifs at h ⊢
    all_goals first | exact h | exact ih _ _ h | exact map_mono (fun y => remnants_mono env n s y) h

/-! ## `consume_ident_like_seq` -/

theorem identLike_total (env : Env) (n : Nat) (s : Str) (hn : s.length < n)
    (h : env.isIdentChar (toChar s[0]?) = true ∨ isEscape 0 s = true) :
    ∃ t r, env.identLike n s = some (t, r) ∧ Shorter r s ∧ t ≠ .eof := by
  obtain ⟨v, r, e, hr⟩ := ident_total env n s [] hn
  have hsh := ident_shorter env n s [] v r hn h e
  unfold Env.identLike
  rw [e]
  simp only [Option.bind_some]
  split_ifs with h1 h2 h3
  · exact ⟨_, _, rfl, .trans_suffix ((skipWs_suffix _ _).trans (nextChar_suffix _)) hsh, by simp⟩
  · have hsuf : env.skipWs (env.skipWs (nextChar r).2) <:+ (nextChar r).2 :=
      (skipWs_suffix _ _).trans (skipWs_suffix _ _)
    have hnx : Shorter (nextChar r).2 r := nextChar_shorter (by rintro rfl; simp at h1)
    obtain ⟨t, r', e', hr', ht⟩ := url_total env n (env.skipWs (env.skipWs (nextChar r).2)) []
      (by have := hsuf.length_le; have := hsh.2; have := hnx.2; omega)
    exact ⟨t, r', e', .trans_suffix (hr'.trans (hsuf.trans hnx.1)) hsh, ht⟩
  · exact ⟨_, _, rfl, .trans_suffix (nextChar_suffix _) hsh, by simp⟩
  · exact ⟨_, _, rfl, hsh, by simp⟩

theorem identLike_mono (env : Env) (n : Nat) (s : Str) (x : Token × Str) (h : env.identLike n s = some x) :
    env.identLike (n + 1) s = some x := by
  unfold Env.identLike at h ⊢
  refine bind_mono (fun y => ident_mono env n _ _ y) ?_ h
  rintro ⟨v, r⟩ z hz
  simp only at hz ⊢
  split_ifs at hz ⊢
  all_goals first | exact hz | exact url_mono env n _ _ _ hz

/-! ## `consume_token` -/

theorem map_total {n : Nat} {s v r : Str} {env : Env} {f : Str × Str → Token × Str} (e : env.ident n s [] = some (v, r)) :
    (env.ident n s []).map f = some (f (v, r)) := by rw [e]; rfl

/-- a token, with something read -/
def Good (s : Str) (o : Option (Token × Str)) : Prop := ∃ t r', o = some (t, r') ∧ Shorter r' s ∧ t ≠ .eof

theorem ite_elim {α : Type} {P : α → Prop} {c : Prop} [Decidable c] {a b : α} (ha : c → P a) (hb : ¬ c → P b) :
    P (if c then a else b) := by
  split_ifs with h
  · exact ha h
  · exact hb h

/-- what has ended stays -/
def Stays {α : Type} (a b : Option α) : Prop := ∀ x, a = some x → b = some x

theorem ite_stays {α : Type} {c : Prop} [Decidable c] {a b a' b' : Option α} (ha : Stays a a') (hb : Stays b b') :
    Stays (if c then a else b) (if c then a' else b') := by
  split_ifs
  · exact ha
  · exact hb

theorem dispatch_total (env : Env) (n : Nat) (s : Str) (hn : s.length < n) :
    ∃ t r, env.dispatch n s = some (t, r) ∧ (s = [] ∧ t = .eof ∧ r = [] ∨ Shorter r s ∧ t ≠ .eof) := by
  cases s with
  | nil => exact ⟨_, _, rfl, .inl ⟨rfl, rfl, rfl⟩⟩
  | cons c r =>
    suffices ∃ t r', env.dispatch n (c :: r) = some (t, r') ∧ Shorter r' (c :: r) ∧ t ≠ .eof by
      obtain ⟨t, r', e, h⟩ := this
      exact ⟨t, r', e, .inr h⟩
    have one := shorter_cons c r
    have hl : r.length < n := by simp at hn; omega
    change Good (c :: r) (env.dispatch n (c :: r))
    refine ite_elim (fun w => ?_) (fun _ => ?_)
    · exact ⟨_, _, rfl, skipWs_shorter env (by simpa using w), by simp⟩
    refine ite_elim (fun q => ?_) (fun _ => ?_)
    · obtain ⟨t, r', e, hr, ht⟩ := string_total env c n r [] hl
      exact ⟨t, r', e, .trans_suffix hr one, ht⟩
    refine ite_elim (fun _ => ite_elim (fun q => ?_) (fun _ => ?_)) (fun _ => ?_)
    · obtain ⟨v, r', e, hr⟩ := ident_total env n r [] hl
      exact ⟨_, _, map_total e, .trans_suffix hr one, by simp⟩
    · exact ⟨_, _, rfl, one, by simp⟩
    iterate 9
      refine ite_elim (fun _ => ⟨_, _, rfl, one, by simp⟩) (fun _ => ?_)
    refine ite_elim (fun plus => ite_elim (fun _ => ?_) (fun _ => ⟨_, _, rfl, one, by simp⟩)) (fun _ => ?_)
    · exact numeric_total env n _ hn (.inl (.inl (by simp [plus])))
    refine ite_elim (fun dot => ite_elim (fun dotN => ?_) (fun _ => ⟨_, _, rfl, one, by simp⟩)) (fun _ => ?_)
    · exact numeric_total env n _ hn (.inr (.inr ⟨by simp [dot], by simpa using dotN⟩))
    refine ite_elim (fun minus => ite_elim (fun _ => ?_) (fun _ => ite_elim (fun _ => ?_) (fun _ => ite_elim (fun minusI => ?_)
      (fun _ => ⟨_, _, rfl, one, by simp⟩)))) (fun _ => ?_)
    · exact numeric_total env n _ hn (.inl (.inr (by simp [minus])))
    · exact ⟨_, _, rfl, ⟨drop_suffix' _ _, by simp only [List.length_drop, List.length_cons]; omega⟩, by simp⟩
    · exact identLike_total env n _ hn (ident_of_starts env minusI)
    refine ite_elim (fun _ => ite_elim (fun _ => ?_) (fun _ => ⟨_, _, rfl, one, by simp⟩)) (fun _ => ?_)
    · exact ⟨_, _, rfl, ⟨drop_suffix' _ _, by simp only [List.length_drop, List.length_cons]; omega⟩, by simp⟩
    refine ite_elim (fun _ => ite_elim (fun _ => ?_) (fun _ => ⟨_, _, rfl, one, by simp⟩)) (fun _ => ?_)
    · obtain ⟨v, r', e, hr⟩ := ident_total env n r [] hl
      exact ⟨_, _, map_total e, .trans_suffix hr one, by simp⟩
    refine ite_elim (fun _ => ite_elim (fun bsE => ?_) (fun _ => ⟨_, _, rfl, one, by simp⟩)) (fun _ => ?_)
    · exact identLike_total env n _ hn (.inr bsE)
    refine ite_elim (fun num => ?_) (fun _ => ?_)
    · exact numeric_total env n _ hn (.inr (.inl (by simpa using num)))
    refine ite_elim (fun _ => ?_) (fun _ => ?_)
    · have := unicodeRange_shorter (s := c :: r) (by simp)
      exact ⟨_, _, rfl, this.1, this.2⟩
    refine ite_elim (fun ids => ?_) (fun _ => ⟨_, _, rfl, one, by simp⟩)
    exact identLike_total env n _ hn (.inl (by simp [toChar, Env.isIdentChar, ids]))

theorem dispatch_mono (env : Env) (n : Nat) (s : Str) (x : Token × Str) : env.dispatch n s = some x →
    env.dispatch (n + 1) s = some x := by
  cases s with
  | nil => exact id
  | cons c r =>
    revert x
    change Stays (env.dispatch n (c :: r)) (env.dispatch (n + 1) (c :: r))
    have hid : ∀ f : Str × Str → Token × Str, Stays ((env.ident n r []).map f) ((env.ident (n + 1) r []).map f) := fun f x hx =>
      map_mono (fun y => ident_mono env n _ _ y) hx
    have same : ∀ o : Option (Token × Str), Stays o o := fun _ _ h => h
    have hnum : Stays (env.numeric n (c :: r)) (env.numeric (n + 1) (c :: r)) := numeric_mono env n _
    have hlike : Stays (env.identLike n (c :: r)) (env.identLike (n + 1) (c :: r)) := identLike_mono env n _
    refine ite_stays (same _) (ite_stays (string_mono env c n r []) (ite_stays (ite_stays (hid _) (same _)) ?_))
    iterate 9
      refine ite_stays (same _) ?_
    refine ite_stays (ite_stays hnum (same _)) (ite_stays (ite_stays hnum (same _)) ?_)
    refine ite_stays (ite_stays hnum (ite_stays (same _) (ite_stays hlike (same _)))) ?_
    refine ite_stays (ite_stays (same _) (same _)) (ite_stays (ite_stays (hid _) (same _)) ?_)
    exact ite_stays (ite_stays hlike (same _)) (ite_stays hnum (ite_stays (same _) (ite_stays hlike (same _))))

/-- the byte order mark -/
theorem bom_suffix (first : Bool) (s : Str) :
    (if (first && decide (s[0]? = some (Char.ofNat 0xFEFF))) = true then (nextChar s).2 else s) <:+ s := by
  split_ifs
  · exact nextChar_suffix s
  · exact List.suffix_refl _

theorem token_total (env : Env) (n : Nat) (first : Bool) (s : Str) (hn : s.length < n) :
    ∃ t r, env.token n first s = some (t, r) ∧ (t = .eof ∧ r = [] ∨ Shorter r s ∧ t ≠ .eof) := by
  have hs := (skipComments_suffix false _).trans (bom_suffix first s)
  obtain ⟨t, r, e, h⟩ := dispatch_total env n _ (Nat.lt_of_le_of_lt hs.length_le hn)
  refine ⟨t, r, e, ?_⟩
  rcases h with h | h
  · exact .inl ⟨h.2.1, h.2.2⟩
  · exact .inr ⟨h.1.suffix_trans hs, h.2⟩

theorem token_mono (env : Env) (n m : Nat) (hm : n ≤ m) (first : Bool) (s : Str) (x : Token × Str) (h : env.token n first s = some x) :
    env.token m first s = some x := by
  induction hm with
  | refl => exact h
  | step _ ih => exact dispatch_mono env _ _ _ ih

/-- the result does not depend on the number of rounds -/
theorem token_unique (env : Env) {n m : Nat} {first : Bool} {s : Str} {x y : Token × Str} (h : env.token n first s = some x)
    (h' : env.token m first s = some y) : x = y := by
  have a := token_mono env n (max n m) (Nat.le_max_left _ _) first s x h
  have b := token_mono env m (max n m) (Nat.le_max_right _ _) first s y h'
  rw [a] at b
  exact Option.some.inj b

/-! ## Running it -/

/-- the tokens, with `n` rounds for each -/
def run (env : Env) (n : Nat) : Nat → Bool → Str → Option (List Token)
  | 0, _, _ => none
  | k + 1, first, s => (env.token n first s).bind fun x => if x.1 = .eof then some [.eof] else (run env n k false x.2).map (x.1 :: ·)

theorem yields_of_run {env : Env} {n k : Nat} {first : Bool} {s : Str} {ts : List Token} (h : run env n k first s = some ts) :
    Yields env first s ts := by
  induction k generalizing first s ts with
  | zero => simp [run] at h
  | succ k ih =>
    rw [run] at h
    cases e : env.token n first s with
    | none => simp [e] at h
    | some x =>
      obtain ⟨t, r⟩ := x
      rw [e, Option.bind_some] at h
      simp only at h
      split_ifs at h with ht
      · subst ht
        cases h
        exact .eof e
      · cases e' : run env n k false r with
        | none => simp [e'] at h
        | some us =>
          rw [e'] at h
          cases h
          exact .next e ht (ih e')

end Verif.CssTok
