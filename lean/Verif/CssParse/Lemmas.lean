import Verif.CssParse.Model

/-! # C109: every step of the parser ends

`phi` bounds what is still to be read; no step makes it larger, and every round of a loop makes it smaller (or takes an end-of-text
token away). -/

namespace Verif.CssParse

open Verif.CssTok (Token)

/-- the tokens other than the end of the text -/
def live (l : List Token) : Nat := l.countP (· ≠ .eof)

def phi (l : List Token) : Nat := max l.length (live l + 3)

theorem live_le (l : List Token) : live l ≤ l.length := List.countP_le_length

theorem live_cons (t : Token) (l : List Token) : live (t :: l) = live l + (if t ≠ .eof then 1 else 0) := by
  simp [live, List.countP_cons]

theorem phi_tail (t : Token) (l : List Token) : phi l ≤ phi (t :: l) := by
  have := live_cons t l
  simp only [phi, List.length_cons]
  split at this <;> omega

theorem phi_live {t : Token} (h : t ≠ .eof) (l : List Token) : phi (t :: l) = phi l + 1 := by
  have := live_cons t l
  rw [if_pos h] at this
  simp only [phi, List.length_cons]
  omega

theorem phi_nil : phi [] = 3 := rfl
theorem phi_eof : phi [.eof] = 3 := rfl

theorem live_append (a b : List Token) : live (a ++ b) = live a + live b := by simp [live]

theorem live_replicate (n : Nat) : live (List.replicate n .eof) = 0 := by simp [live]

theorem phi_pad {k : Nat} (hk : k ≤ 2) (l : List Token) : phi (pad k l) = phi l := by
  have h := live_le l
  simp only [phi, pad, List.length_append, List.length_replicate, live_append, live_replicate]
  omega

/-- the state in which a step ends -/
def Res.All {α : Type} (r : Res α) (Q : PS → Prop) : Prop :=
  match r with
  | .ok _ s => Q s
  | .err s => Q s
  | .deep => True
  | .hang => False

theorem Res.All.mono {α : Type} {r : Res α} {Q R : PS → Prop} (h : r.All Q) (hq : ∀ s, Q s → R s) : r.All R := by
  cases r <;> simp_all [Res.All]

/-- what is left is less, or it is no more and begins with the same token -/
def Rem (l l' : List Token) : Prop :=
  phi l' < phi l ∨ (phi l' ≤ phi l ∧ ∀ t, t ≠ .eof → l.head? = some t → l'.head? = some t)

theorem Rem.refl (l : List Token) : Rem l l := .inr ⟨Nat.le_refl _, fun _ _ h => h⟩

theorem Rem.le {l l' : List Token} (h : Rem l l') : phi l' ≤ phi l := by rcases h with h | h <;> omega

theorem Rem.trans {a b c : List Token} (h : Rem a b) (h' : Rem b c) : Rem a c := by
  rcases h with h | ⟨h, h2⟩
  · exact .inl (by have := h'.le; omega)
  · rcases h' with h' | ⟨h', h3⟩
    · exact .inl (by omega)
    · exact .inr ⟨by omega, fun t ht e => h3 t ht (h2 t ht e)⟩

theorem Rem.tail (t : Token) {l l' : List Token} (h : phi l' ≤ phi l) : Rem (t :: l) l' := by
  by_cases ht : t = .eof
  · subst ht
    refine .inr ⟨by have := phi_tail .eof l; omega, fun u hu e => ?_⟩
    simp only [List.head?_cons, Option.some.injEq] at e
    exact absurd e.symm hu
  · exact .inl (by rw [phi_live ht]; omega)

theorem Rem.append {l : List Token} (k : List Token) (h : phi (l ++ k) ≤ phi l) : Rem l (l ++ k) := by
  refine .inr ⟨h, fun t _ e => ?_⟩
  cases l with
  | nil => simp at e
  | cons u r => exact e

/-- a step that makes no more to read -/
def Good {α : Type} (f : P α) : Prop := ∀ s, (f s).All fun s' => Rem s.next s'.next

/-- a step that, after `t` has been consumed, leaves no more to read than there was before -/
def Back {α : Type} (t : Token) (f : P α) : Prop :=
  ∀ s, s.prev.head? = some t → (f s).All fun s' => Rem (t :: s.next) s'.next

/-- a step that, if it ends with such an `a`, leaves less to read -/
def Strict {α : Type} (p : α → Prop) (f : P α) : Prop :=
  ∀ s a s', f s = .ok a s' → p a → phi s'.next < phi s.next

/-- the same after `t` has been consumed -/
def Kept {α : Type} (p : α → Prop) (t : Token) (f : P α) : Prop :=
  ∀ s, s.prev.head? = some t → ∀ a s', f s = .ok a s' → p a → phi s'.next < phi (t :: s.next)

/-- a step that never ends with such an `a` -/
def Never {α : Type} (p : α → Prop) (f : P α) : Prop := ∀ s a s', f s = .ok a s' → ¬ p a

theorem bind_run {α β : Type} (m : P α) (f : α → P β) (s : PS) :
    (m >>= f) s = (match m s with | .ok a s' => f a s' | .err s' => .err s' | .deep => .deep | .hang => .hang) := rfl

theorem pure_run {α : Type} (a : α) (s : PS) : (pure a : P α) s = .ok a s := rfl

theorem bind_ok {α β : Type} {m : P α} {f : α → P β} {s s' : PS} {a : α} (h : m s = .ok a s') : (m >>= f) s = f a s' := by
  rw [bind_run, h]

theorem bind_err {α β : Type} {m : P α} {f : α → P β} {s s' : PS} (h : m s = .err s') : (m >>= f) s = .err s' := by
  rw [bind_run, h]

theorem bind_inv {α β : Type} {m : P α} {f : α → P β} {s s' : PS} {b : β} (h : (m >>= f) s = .ok b s') :
    ∃ a s1, m s = .ok a s1 ∧ f a s1 = .ok b s' := by
  rw [bind_run] at h
  cases e : m s <;> rw [e] at h <;> simp_all

theorem bind_all {α β : Type} {m : P α} {f : α → P β} {s : PS} {Q R : PS → Prop} (hm : (m s).All Q)
    (he : ∀ s', Q s' → R s') (hf : ∀ a s', Q s' → (f a s').All R) : ((m >>= f) s).All R := by
  rw [bind_run]
  cases h : m s <;> rw [h] at hm <;> simp only [Res.All] at hm ⊢
  · exact hf _ _ hm
  · exact he _ hm

theorem consume_cons {s : PS} {t : Token} {r : List Token} (h : s.next = t :: r) :
    consume s = .ok t { s with prev := t :: s.prev, next := r } := by
  unfold consume
  rw [h]

theorem consume_nil {s : PS} (h : s.next = []) : consume s = .ok .eof { s with prev := .eof :: s.prev } := by
  unfold consume
  rw [h]

theorem reconsume_run (p n : List Token) (t : Token) (d a : Nat) : reconsume ⟨t :: p, n, d, a⟩ = .ok () ⟨p, t :: n, d, a⟩ := rfl

section rules
variable {α β : Type}

theorem good_pure (a : α) : Good (pure a : P α) := fun _ => .refl _
theorem good_fail : Good (fail : P α) := fun _ => .refl _

theorem good_bind {m : P α} {f : α → P β} (hm : Good m) (hf : ∀ a, Good (f a)) : Good (m >>= f) := fun s =>
  bind_all (hm s) (fun _ h => h) fun a s' h => (hf a s').mono fun _ h' => h.trans h'

theorem good_consume_bind {f : Token → P β} (hf : ∀ t, Back t (f t)) : Good (consume >>= f) := by
  intro s
  cases h : s.next with
  | nil =>
    rw [bind_ok (consume_nil h)]
    refine (hf .eof _ rfl).mono fun s' h' => ?_
    refine .inr ⟨?_, by simp⟩
    have := h'.le
    simpa only [h, phi_eof, phi_nil] using this
  | cons t r =>
    rw [bind_ok (consume_cons h)]
    exact (hf t _ rfl).mono fun s' h' => h'

theorem back_good {t : Token} {f : P α} (hf : Good f) : Back t f := fun s _ => (hf s).mono fun _ h => .tail t h.le

theorem prev_head {s : PS} {t : Token} (h : s.prev.head? = some t) : ∃ p, s.prev = t :: p := by
  cases h' : s.prev with
  | nil => simp [h'] at h
  | cons u p => simp only [h', List.head?_cons, Option.some.injEq] at h; exact ⟨p, by rw [h]⟩

theorem back_reconsume {t : Token} {f : Unit → P α} (hf : Good (f ())) : Back t (reconsume >>= f) := by
  intro s hs
  obtain ⟨p, hp⟩ := prev_head hs
  rw [bind_run]
  unfold reconsume
  rw [hp]
  exact hf _

theorem back_reconsume' {t : Token} : Back t reconsume := by
  intro s hs
  obtain ⟨p, hp⟩ := prev_head hs
  unfold reconsume
  rw [hp]
  exact .refl _

theorem strict_consume_bind {p : β → Prop} {f : Token → P β} (hf : ∀ t, t ≠ .eof → Kept p t (f t)) (he : Never p (f .eof)) :
    Strict p (consume >>= f) := by
  intro s a s' h hp
  cases hn : s.next with
  | nil =>
    rw [bind_ok (consume_nil hn)] at h
    exact absurd hp (he _ _ _ h)
  | cons t r =>
    rw [bind_ok (consume_cons hn)] at h
    by_cases ht : t = .eof
    · subst ht
      exact absurd hp (he _ _ _ h)
    · exact hf t ht _ rfl _ _ h hp

theorem kept_good {p : α → Prop} {t : Token} (ht : t ≠ .eof) {f : P α} (hf : Good f) : Kept p t f := by
  intro s _ a s' h _
  have := hf s
  rw [h] at this
  have := Rem.le this
  rw [phi_live ht]
  omega

theorem kept_reconsume {p : α → Prop} {t : Token} {f : Unit → P α} (hf : Strict p (f ())) : Kept p t (reconsume >>= f) := by
  intro s hs a s' h hp
  obtain ⟨q, hq⟩ := prev_head hs
  have e : reconsume s = .ok () { s with prev := q, next := t :: s.next } := by
    unfold reconsume
    rw [hq]
  rw [bind_ok e] at h
  exact hf _ _ _ h hp

theorem kept_never {p : α → Prop} {t : Token} {f : P α} (hf : Never p f) : Kept p t f := fun _ _ _ _ h hp =>
  absurd hp (hf _ _ _ h)

theorem never_pure {p : α → Prop} {a : α} (h : ¬ p a) : Never p (pure a : P α) := by
  intro s b s' e
  rw [pure_run] at e
  cases e
  exact h

theorem never_fail {p : α → Prop} : Never p (fail : P α) := by
  intro s b s' e
  simp [fail] at e

theorem never_bind {p : β → Prop} {m : P α} {f : α → P β} (h : ∀ a, Never p (f a)) : Never p (m >>= f) := by
  intro s b s' e
  obtain ⟨a, s1, _, e2⟩ := bind_inv e
  exact h a _ _ _ e2

theorem strict_never {p : α → Prop} {f : P α} (hf : Never p f) : Strict p f := fun _ _ _ h hp => absurd hp (hf _ _ _ h)

theorem strict_weaken {p : α → Prop} {f : P α} (hf : Strict (fun _ => True) f) : Strict p f := fun s a s' h _ => hf s a s' h trivial

/-- what comes first is strict -/
theorem strict_left {q : α → Prop} {p : β → Prop} {m : P α} {f : α → P β} (hm : Strict q m) (hg : Good m)
    (hf : ∀ a, Good (f a)) (hn : ∀ a, ¬ q a → Strict p (f a)) : Strict p (m >>= f) := by
  intro s b s' h hp
  obtain ⟨a, s1, e1, e2⟩ := bind_inv h
  by_cases hq : q a
  · have h1 := hm _ _ _ e1 hq
    have h2 := hf a s1
    rw [e2] at h2
    have := Rem.le h2
    omega
  · have h1 := hn a hq _ _ _ e2 hp
    have h2 := hg s
    rw [e1] at h2
    have := Rem.le h2
    omega

theorem strict_right {p : β → Prop} {m : P α} {f : α → P β} (hg : Good m) (hf : ∀ a, Strict p (f a)) : Strict p (m >>= f) := by
  intro s b s' h hp
  obtain ⟨a, s1, e1, e2⟩ := bind_inv h
  have h1 := hf a _ _ _ e2 hp
  have h2 := hg s
  rw [e1] at h2
  have := Rem.le h2
  omega

theorem good_lookahead {k : Nat} (hk : k ≤ 2) : Good (lookahead k) := fun s => .append _ (Nat.le_of_eq (phi_pad hk s.next))

theorem good_consume : Good consume := by
  intro s
  cases h : s.next with
  | nil => rw [consume_nil h]; simp only [Res.All, h]; exact .refl _
  | cons t r => rw [consume_cons h]; exact .tail t (Nat.le_refl _)

theorem dropWhile_nil_live {l : List Token} (h : l.dropWhile (· = .whitespace) = []) : live l = l.length := by
  induction l with
  | nil => rfl
  | cons t r ih =>
    rw [List.dropWhile_cons] at h
    split at h
    · rename_i ht
      simp only [decide_eq_true_eq] at ht
      subst ht
      rw [live_cons, ih h]
      simp
    · simp at h

theorem phi_scan {k : Nat} (hk : k ≤ 2) {l : List Token} (h : live ((pad k l).drop k) = ((pad k l).drop k).length) :
    phi (pad k l ++ [.eof]) ≤ phi l := by
  have h2 := phi_pad hk l
  have h3 : live (pad k l) = live ((pad k l).take k) + live ((pad k l).drop k) := by
    rw [← live_append, List.take_append_drop]
  have h4 : (pad k l).length = ((pad k l).take k).length + ((pad k l).drop k).length := by
    rw [← List.length_append, List.take_append_drop]
  have h5 : ((pad k l).take k).length ≤ 2 := by simp; omega
  have h6 : live [Token.eof] = 0 := rfl
  rw [← h2]
  simp only [phi, List.length_append, live_append, List.length_singleton]
  omega

theorem good_lookaheadSc {k : Nat} (hk : k ≤ 2) : Good (lookaheadSc k) := by
  intro s
  unfold lookaheadSc
  split
  · exact .append _ (Nat.le_of_eq (phi_pad hk s.next))
  · rename_i h
    have := phi_scan hk (dropWhile_nil_live h)
    show Rem s.next (pad k s.next ++ [.eof])
    unfold pad at this ⊢
    rw [List.append_assoc] at this ⊢
    exact .append _ this

theorem good_atEof : Good atEof := fun _ => .refl _
theorem good_current : Good current := fun _ => .refl _
theorem good_allowPush : Good allowPush := fun _ => .refl _
theorem good_allowPop : Good allowPop := fun _ => .refl _
theorem good_allowed : Good allowed := fun _ => .refl _

theorem good_recurse {f : P α} (hf : Good f) : Good (recurse f) := by
  intro s
  unfold recurse
  split
  · exact .refl _
  · have h := hf { s with depth := s.depth + 1 }
    cases e : f { s with depth := s.depth + 1 } <;> rw [e] at h <;> exact h

theorem good_attempt {f : P α} (hf : Good f) : Good (attempt f) := by
  intro s
  have h := hf s
  unfold attempt
  cases e : f s <;> rw [e] at h <;> exact h

theorem good_thenPop {f : P α} (hf : Good f) : Good (thenPop f) := by
  intro s
  have h := hf s
  unfold thenPop
  cases e : f s <;> rw [e] at h <;> exact h

end rules

/-! ## Loops -/

/-- what one round of a loop has to do: go on only with less to read (`w` is what the state of the loop adds) -/
def Round {σ β : Type} (w : σ → Nat) (x : σ) (f : P (σ ⊕ β)) : Prop := ∀ s,
  match f s with
  | .ok (.inl y) s' => Rem s.next s'.next ∧
      (phi s'.next < phi s.next ∨ 2 * s'.next.length + w y < 2 * s.next.length + w x)
  | .ok (.inr _) s' => Rem s.next s'.next
  | .err s' => Rem s.next s'.next
  | .deep => True
  | .hang => False

theorem phi_len (l : List Token) : l.length ≤ phi l ∧ phi l ≤ l.length + 3 := by
  have := live_le l
  simp only [phi]
  omega

theorem good_rounds {σ β : Type} {w : σ → Nat} (hw : ∀ x, w x ≤ 1) {body : σ → P (σ ⊕ β)} (hb : ∀ x, Round w x (body x)) :
    ∀ n x s, 12 * phi s.next + 2 * s.next.length + w x < n → (rounds body n x s).All fun s' => Rem s.next s'.next
  | 0, _, _, h => by omega
  | n + 1, x, s, h => by
    show ((body x >>= fun r => match r with | .inl y => rounds body n y | .inr b => pure b) s).All _
    rw [bind_run]
    have hr := hb x s
    cases e : body x s with
    | ok a s' =>
      rw [e] at hr
      cases a with
      | inl y =>
        simp only at hr ⊢
        have l1 := phi_len s'.next
        have l2 := phi_len s.next
        have l3 := hw x
        have l4 := hw y
        have l5 := hr.1.le
        exact (good_rounds hw hb n y s' (by rcases hr.2 with hr | hr <;> omega)).mono fun s'' h'' => hr.1.trans h''
      | inr b => exact hr
    | err s' => rw [e] at hr; exact hr
    | deep => trivial
    | hang => rw [e] at hr; exact hr

theorem good_forever {σ β : Type} (w : σ → Nat) (hw : ∀ x, w x ≤ 1) {body : σ → P (σ ⊕ β)} (hb : ∀ x, Round w x (body x)) (x : σ) :
    Good (forever body x) := by
  intro s
  have := phi_len s.next
  have := hw x
  exact good_rounds hw hb _ x s (by omega)

/-- `inl` -/
def Goes {σ β : Type} (r : σ ⊕ β) : Prop := r.isLeft = true

/-- a round that goes on only when it has read something -/
theorem round_of {σ β : Type} {x : σ} {f : P (σ ⊕ β)} (hg : Good f) (hs : Strict Goes f) : Round (fun _ => 0) x f := by
  intro s
  have h := hg s
  cases e : f s with
  | ok a s' =>
    rw [e] at h
    cases a with
    | inl y => exact ⟨h, .inl (hs _ _ _ e rfl)⟩
    | inr b => exact h
  | err s' => rw [e] at h; exact h
  | deep => trivial
  | hang => rw [e] at h; exact h

theorem good_loop {σ β : Type} {body : σ → P (σ ⊕ β)} (hg : ∀ x, Good (body x)) (hs : ∀ x, Strict Goes (body x)) (x : σ) :
    Good (forever body x) := good_forever (fun _ => 0) (fun _ => by omega) (fun x => round_of (hg x) (hs x)) x

theorem not_goes {σ β : Type} (b : β) : ¬ Goes (Sum.inr b : σ ⊕ β) := by simp [Goes]

end Verif.CssParse
