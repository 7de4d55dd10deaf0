import Verif.TreeBuild.Lemmas10

/-!
# The main loop
-/
namespace Verif.TreeBuild
open Verif Verif.Dom

/-- what the loop keeps -/
structure LInv (l : Loop) : Prop where
  inv : Inv l.st
  input : ∀ t ∈ l.input, t ≠ .eof
  queue : ∀ t ∈ l.st.queue, ∃ p, t = .text p
  last : ∀ t f, l.again = some (t, f) → t = .eof → l.st.queue = [] ∧ l.input = []
  foreign : ∀ t, l.again = some (t, true) → t ≠ .eof ∧ (l.st.framesetOk = true → LateS l.st) ∧ Leaving t
  done : l.st.finished = true → l.again = none ∧ l.st.queue = [] ∧ l.input = []

/-- what is left to do, ordered lexicographically -/
def Loop.load (l : Loop) : Nat := total l.st.queue + l.again.elim 0 fun x => weight x.1
def Loop.flag (l : Loop) : Nat := l.again.elim 1 fun _ => 0
def Loop.deep (l : Loop) : Nat := l.again.elim 0 fun _ => depth l.st.doc l.st.opened
def Loop.rank (l : Loop) : Nat := l.again.elim 0 fun x => 2 * TreeBuild.rank l.st.mode x.1 + image x.1

/-- closer to the end -/
def Loop.lt (a b : Loop) : Prop :=
  Prod.Lex (· < ·) (Prod.Lex (· < ·) (Prod.Lex (· < ·) (Prod.Lex (· < ·) (· < ·)))) (a.input.length, a.load, a.flag, a.deep, a.rank)
    (b.input.length, b.load, b.flag, b.deep, b.rank)

theorem Loop.lt_wf : WellFounded Loop.lt :=
  InvImage.wf (fun a : Loop => (a.input.length, a.load, a.flag, a.deep, a.rank))
    (Prod.lex ⟨_, Nat.lt_wfRel.wf⟩ (Prod.lex ⟨_, Nat.lt_wfRel.wf⟩ (Prod.lex ⟨_, Nat.lt_wfRel.wf⟩ (Prod.lex ⟨_, Nat.lt_wfRel.wf⟩ ⟨_, Nat.lt_wfRel.wf⟩)))).wf

theorem Loop.lt_of {a b : Loop} (h : a.input.length < b.input.length ∨ (a.input.length = b.input.length ∧ (a.load < b.load ∨
    (a.load = b.load ∧ (a.flag < b.flag ∨ (a.flag = b.flag ∧ (a.deep < b.deep ∨ (a.deep = b.deep ∧ a.rank < b.rank)))))))) : Loop.lt a b := by
  unfold Loop.lt
  rcases h with h | ⟨e, h⟩
  · exact .left _ _ h
  rw [e]
  refine .right _ ?_
  rcases h with h | ⟨e, h⟩
  · exact .left _ _ h
  rw [e]
  refine .right _ ?_
  rcases h with h | ⟨e, h⟩
  · exact .left _ _ h
  rw [e]
  refine .right _ ?_
  rcases h with h | ⟨e, h⟩
  · exact .left _ _ h
  rw [e]
  exact .right _ h

theorem foreign_late {s : St} {t : Token} (hs : Inv s) (h : isForeign s t = true) :
    t ≠ .eof ∧ (s.framesetOk = true → LateS s) ∧ (ns s.doc (adjustedCurrent s)).getD htmlNs ≠ htmlNs := by
  unfold isForeign at h
  dsimp only at h
  split at h
  · cases h
  · next h1 =>
    split at h
    · cases h
    · next h2 =>
      refine ⟨?_, ?_, h2⟩
      · rintro rfl
        simp at h
      · intro hf
        rcases hs.shape hf with h' | h'
        · exact h'
        · exfalso
          apply h2
          have hne : s.opened ≠ [] := fun he => h1 (by rw [he]; rfl)
          have hall : ∀ y ∈ s.opened, isHtml s.doc y = true := by
            rcases h'.stack with ⟨_, e⟩ | ⟨_, _, x, r, e1, e2, e3⟩
            · exact e.html
            · intro y hy
              rw [e1] at hy
              rcases List.mem_cons.1 hy with rfl | hy
              · exact e2
              · exact e3.html y hy
          have hcur : isHtml s.doc (current s) = true := by
            unfold current
            cases hl : s.opened with
            | nil => exact absurd hl hne
            | cons y r => exact hall y (by rw [hl]; simp)
          have key : isHtml s.doc (adjustedCurrent s) = true := by
            unfold adjustedCurrent
            split
            · next c hc =>
              split
              · exact h'.context c hc
              · exact hcur
            · exact hcur
          unfold isHtml at key
          rw [of_decide_eq_true key]; rfl

/-- the token to process, and what is left -/
structure Ready (l : Loop) (x : Token × Bool) (l' : Loop) : Prop where
  inv : Inv l'.st
  input : ∀ t ∈ l'.input, t ≠ .eof
  queue : ∀ t ∈ l'.st.queue, ∃ p, t = .text p
  last : x.1 = .eof → l'.st.queue = [] ∧ l'.input = []
  foreign : x.2 = true → x.1 ≠ .eof ∧ (l'.st.framesetOk = true → LateS l'.st) ∧
    (Leaving x.1 ∨ (ns l'.st.doc (adjustedCurrent l'.st)).getD htmlNs ≠ htmlNs)
  finished : l'.st.finished = l.st.finished
  less : l'.input.length < l.input.length ∨ (l'.input = l.input ∧ total l'.st.queue + weight x.1 = l.load)
  same : l.again ≠ none → l'.input = l.input ∧ l'.st = l.st ∧ l.again = some x
  ext : Ext l.st.doc l'.st.doc
  context : l'.st.context = l.st.context

theorem inv_queue {s : St} (hs : Inv s) (q : List Token) (sw : Option HtmlTok.Content) : Inv { s with queue := q, switch := sw } :=
  ⟨good_same hs.good s.mode s.original q sw s.finished s.quirks s.ignoreLf, hs.held,
    fun hf => (hs.shape hf).imp id fun h => ⟨h.context, h.stack⟩⟩

theorem next_ready {l : Loop} (h : LInv l) : Ready l l.next.1 l.next.2 := by
  unfold Loop.next
  cases ha : l.again with
  | some x =>
    obtain ⟨t, f⟩ := x
    refine ⟨h.inv, h.input, h.queue, h.last t f ha, ?_, rfl, .inr ⟨rfl, ?_⟩, fun _ => ⟨rfl, rfl, ha⟩, Ext.refl _, rfl⟩
    · intro hf
      have hf' : f = true := hf
      subst hf'
      obtain ⟨h1, h2, h3⟩ := h.foreign t ha
      exact ⟨h1, h2, .inl h3⟩
    · unfold Loop.load; rw [ha]; rfl
  | none =>
    dsimp only
    have fr : ∀ {s : St} {t : Token}, Inv s → isForeign s t = true → t ≠ .eof ∧ (s.framesetOk = true → LateS s) ∧
        (Leaving t ∨ (ns s.doc (adjustedCurrent s)).getD htmlNs ≠ htmlNs) := fun hs hf =>
      let ⟨h1, h2, h3⟩ := foreign_late hs hf
      ⟨h1, h2, .inr h3⟩
    unfold Loop.fetch
    cases hq : l.st.queue with
    | cons t q =>
      dsimp only
      have hi : Inv { l.st with queue := q } := inv_queue h.inv q l.st.switch
      refine ⟨hi, h.input, ?_, ?_, fun hf => fr hi hf, rfl, .inr ⟨rfl, ?_⟩, fun h' => absurd ha h', Ext.refl _, rfl⟩
      · intro y hy; exact h.queue y (by rw [hq]; exact List.mem_cons_of_mem _ hy)
      · intro he
        have he' : t = .eof := he
        obtain ⟨p, hp⟩ := h.queue t (by rw [hq]; simp)
        rw [hp] at he'; cases he'
      · unfold Loop.load; rw [ha, hq]
        show total q + weight t = total (t :: q) + 0
        unfold total; rw [List.map_cons, List.sum_cons]; omega
    | nil =>
      cases hin : l.input with
      | cons t r =>
        dsimp only
        have hi : Inv { l.st with switch := none } := inv_queue h.inv l.st.queue none
        refine ⟨hi, ?_, h.queue, ?_, fun hf => fr hi hf, rfl, .inl ?_, fun h' => absurd ha h', Ext.refl _, rfl⟩
        · intro y hy; exact h.input y (by rw [hin]; exact List.mem_cons_of_mem _ hy)
        · intro he; exact absurd he (h.input t (by rw [hin]; simp))
        · show r.length < l.input.length; rw [hin, List.length_cons]; omega
      | nil =>
        dsimp only
        refine ⟨h.inv, h.input, h.queue, fun _ => ⟨hq, hin⟩, fun hf => fr h.inv hf, rfl, .inr ⟨rfl, ?_⟩, fun h' => absurd ha h', Ext.refl _, rfl⟩
        unfold Loop.load; rw [ha]; rfl

theorem dispatch_round (env : Env) {l l' : Loop} {x : Token × Bool} (h : Ready l x l') :
    ∃ r s', dispatch env x l'.st = some (r, s') ∧ Round x.1 l'.st r s' ∧
      (x.2 = true → (r = .again → Leaving x.1) ∧ ∀ t', r = .other t' → Leaving t') := by
  unfold dispatch
  split
  · next hf =>
    obtain ⟨h1, h2, h3⟩ := h.foreign hf
    obtain ⟨r, s', e1, e2, e3⟩ := processForeign_round env h1 h.inv h2 h3
    exact ⟨r, s', e1, e2, fun _ => e3⟩
  · next hf =>
    obtain ⟨r, s', e1, e2⟩ := processHtml_round env x.1 h.inv
    exact ⟨r, s', e1, e2, fun h => absurd h hf⟩

/-- the token to process again -/
def put (x : Token × Bool) : Next → Option (Token × Bool)
  | .done => none
  | .again => some x
  | .other t => some (t, x.2)

/-- One round of the loop, if the parser is not finished. -/
theorem step_ok (env : Env) {l : Loop} (h : LInv l) (hf : l.st.finished = false) :
    ∃ l', Loop.step env l = some l' ∧ LInv l' ∧ Ext l.st.doc l'.st.doc ∧ l'.st.context = l.st.context ∧
      (l'.st.finished = true ∨ Loop.lt l' l) := by
  have hr := next_ready h
  obtain ⟨r, s', h1, h2, h3⟩ := dispatch_round env hr
  generalize hx : l.next.1 = x at *
  generalize hl : l.next.2 = m at *
  have hd := h2.dealt
  have keep : s'.framesetOk = true → LateS m.st → LateS s' := h2.late
  -- the token goes back: what the loop keeps, and why it is closer to the end
  have back : ∀ t', s'.queue = m.st.queue → s'.finished = m.st.finished → Low m.st x.1 s' t' → weight t' ≤ weight x.1 →
      (t' = .eof ↔ x.1 = .eof) → (x.2 = true → Leaving t') →
      LInv { m with st := s', again := some (t', x.2) } ∧ Loop.lt { m with st := s', again := some (t', x.2) } l := by
    intro t' e1 e2 e3 e4 e5 e6
    refine ⟨⟨h2.inv, hr.input, ?_, ?_, ?_, ?_⟩, Loop.lt_of ?_⟩
    · show ∀ t ∈ s'.queue, _
      rw [e1]; exact hr.queue
    · intro t f ht he
      simp only [Option.some.injEq, Prod.mk.injEq] at ht
      obtain ⟨rfl, rfl⟩ := ht
      show s'.queue = [] ∧ m.input = []
      rw [e1]; exact hr.last (e5.1 he)
    · intro t ht
      simp only [Option.some.injEq, Prod.mk.injEq] at ht
      obtain ⟨rfl, hx2⟩ := ht
      obtain ⟨k1, k2, _⟩ := hr.foreign hx2
      exact ⟨fun he => k1 (e5.1 he), fun hfs => keep hfs (k2 (h2.frameset hfs)), e6 hx2⟩
    · intro hfin
      have : s'.finished = true := hfin
      rw [e2, hr.finished, hf] at this; cases this
    · show m.input.length < l.input.length ∨ (m.input.length = l.input.length ∧ (total s'.queue + weight t' < l.load ∨
        (total s'.queue + weight t' = l.load ∧ (0 < l.flag ∨ (0 = l.flag ∧ (depth s'.doc s'.opened < l.deep ∨
          (depth s'.doc s'.opened = l.deep ∧ 2 * TreeBuild.rank s'.mode t' + image t' < l.rank)))))))
      rcases hr.less with hless | ⟨hin, hload⟩
      · exact .inl hless
      · refine .inr ⟨by rw [hin], ?_⟩
        have hle : total s'.queue + weight t' ≤ l.load := by rw [e1, ← hload]; omega
        rcases Nat.lt_or_ge (total s'.queue + weight t') l.load with hlt | hge
        · exact .inl hlt
        · refine .inr ⟨by omega, ?_⟩
          cases ha : l.again with
          | none => exact .inl (by unfold Loop.flag; rw [ha]; decide)
          | some y =>
            obtain ⟨_, g1, g2⟩ := hr.same (by rw [ha]; intro h; cases h)
            refine .inr ⟨by unfold Loop.flag; rw [ha]; rfl, ?_⟩
            have hdeep : l.deep = depth m.st.doc m.st.opened := by unfold Loop.deep; rw [ha, g1]; rfl
            have hrank : l.rank = 2 * TreeBuild.rank m.st.mode x.1 + image x.1 := by unfold Loop.rank; rw [g2, g1]; rfl
            rw [hdeep, hrank]
            rcases e3 with e3 | ⟨e3, e3'⟩
            · exact .inl e3
            · rcases Nat.lt_or_ge (depth s'.doc s'.opened) (depth m.st.doc m.st.opened) with h' | h'
              · exact .inl h'
              · exact .inr ⟨by omega, e3'⟩
  have hstep : Loop.step env l = some { m with st := s', again := put x r } := by
    unfold Loop.step
    rw [hf]
    dsimp only
    rw [if_neg (by decide), hx, hl, h1]
    cases r <;> rfl
  have hext : Ext l.st.doc s'.doc := hr.ext.trans h2.ext
  have hctx : s'.context = l.st.context := h2.context.trans hr.context
  cases r with
  | done =>
    refine ⟨_, hstep, ?_⟩
    rcases hd with ⟨d1, d2, d3⟩ | ⟨d1, d2, d3, d4⟩
    · obtain ⟨q1, q2⟩ := hr.last d1
      have hq : s'.queue = [] := d3.trans q1
      refine ⟨⟨h2.inv, hr.input, ?_, (fun t f h => by cases h), (fun t h => by cases h), fun _ => ⟨rfl, hq, q2⟩⟩, hext, hctx, .inl d2⟩
      show ∀ t ∈ s'.queue, _
      rw [hq]; intro t ht; cases ht
    · refine ⟨⟨h2.inv, hr.input, ?_, (fun t f h => by cases h), (fun t h => by cases h), ?_⟩, hext, hctx, .inr (Loop.lt_of ?_)⟩
      · intro t ht
        rcases d4 t ht with h' | h'
        · exact hr.queue t h'
        · exact h'
      · intro hfin
        have : s'.finished = true := hfin
        rw [d2, hr.finished, hf] at this; cases this
      · rcases hr.less with hless | ⟨hin, hload⟩
        · exact .inl hless
        · refine .inr ⟨by rw [hin], .inl ?_⟩
          show total s'.queue + 0 < l.load
          rw [← hload]; exact d3
  | again =>
    obtain ⟨e1, e2, e3⟩ := hd
    obtain ⟨k1, k2⟩ := back x.1 e1 e2 e3 (Nat.le_refl _) Iff.rfl fun hx2 => (h3 hx2).1 rfl
    exact ⟨_, hstep, k1, hext, hctx, .inr k2⟩
  | other t' =>
    obtain ⟨e1, e2, e3, e4, e5, _⟩ := hd
    obtain ⟨k1, k2⟩ := back t' e1 e2 e3 e4 e5 fun hx2 => (h3 hx2).2 t' rfl
    exact ⟨_, hstep, k1, hext, hctx, .inr k2⟩

/-- The loop never comes to a panic. -/
theorem run_safe (env : Env) : ∀ (k : Nat) {l : Loop}, LInv l → ∃ l', Loop.run env l k = some l' ∧ LInv l' ∧ Ext l.st.doc l'.st.doc ∧
    l'.st.context = l.st.context
  | 0, l, h => ⟨l, rfl, h, Ext.refl _, rfl⟩
  | k + 1, l, h => by
    cases hf : l.st.finished with
    | true =>
      have : Loop.step env l = some l := by unfold Loop.step; rw [hf]; rfl
      obtain ⟨l', h1, h2⟩ := run_safe env k h
      exact ⟨l', by unfold Loop.run; rw [this]; exact h1, h2⟩
    | false =>
      obtain ⟨l1, e1, e2, e3, e4, _⟩ := step_ok env h hf
      obtain ⟨l', h1, h2, h3, h4⟩ := run_safe env k e2
      exact ⟨l', by unfold Loop.run; rw [e1]; exact h1, h2, e3.trans h3, h4.trans e4⟩

/-- The loop comes to its end. -/
theorem run_ends (env : Env) (l : Loop) (h : LInv l) : ∃ k l', Loop.run env l k = some l' ∧ l'.st.finished = true := by
  induction l using Loop.lt_wf.induction with
  | _ l ih =>
    cases hf : l.st.finished with
    | true => exact ⟨0, l, rfl, hf⟩
    | false =>
      obtain ⟨l1, e1, e2, _, _, e5⟩ := step_ok env h hf
      rcases e5 with e5 | e5
      · exact ⟨1, l1, by unfold Loop.run; rw [e1]; rfl, e5⟩
      · obtain ⟨k, l', h1, h2⟩ := ih l1 e5 e2
        exact ⟨k + 1, l', by unfold Loop.run; rw [e1]; exact h1, h2⟩

end Verif.TreeBuild
