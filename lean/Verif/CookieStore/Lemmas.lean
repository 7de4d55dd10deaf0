import Verif.CookieStore.Spec
import Verif.Cookies.Lemmas
set_option linter.unusedVariables false
namespace Verif.CookieStore
variable {J : Type}

/-! ## Maps -/

theorem get_insert {α : Type} (m : List (Nat × α)) (k k' : Nat) (x : α) :
    get (insert m k x) k' = if k = k' then some x else get m k' := by
  induction m with
  | nil => simp [insert, get]
  | cons e r ih =>
    obtain ⟨a, v⟩ := e
    simp only [insert]
    split
    · rename_i h
      subst h
      simp only [get]
      split <;> rfl
    · rename_i h
      simp only [get, ih]
      by_cases h1 : a = k'
      · subst h1
        rw [if_pos rfl, if_neg (fun e => h e.symm), if_pos rfl]
      · rw [if_neg h1, if_neg h1]

theorem get_erase {α : Type} (m : List (Nat × α)) (k k' : Nat) :
    get (erase m k) k' = if k = k' then none else get m k' := by
  induction m with
  | nil => simp [erase, get]
  | cons e r ih =>
    obtain ⟨a, v⟩ := e
    simp only [erase]
    split
    · rename_i h
      subst h
      rw [ih]
      simp only [get]
      split <;> rfl
    · rename_i h
      simp only [get, ih]
      by_cases h1 : a = k'
      · subst h1
        rw [if_pos rfl, if_neg (fun e => h e.symm), if_pos rfl]
      · rw [if_neg h1, if_neg h1]

theorem mem_insert {α : Type} {m : List (Nat × α)} {k : Nat} {x : α} {e : Nat × α}
    (h : e ∈ insert m k x) : e = (k, x) ∨ (e ∈ m) := by
  induction m with
  | nil => simp [insert] at h; exact Or.inl h
  | cons a r ih =>
    obtain ⟨a, v⟩ := a
    simp only [insert] at h
    split at h
    · rename_i hk
      rcases List.mem_cons.mp h with h | h
      · exact Or.inl (by rw [h, hk])
      · exact Or.inr (by simp [h])
    · rcases List.mem_cons.mp h with h | h
      · exact Or.inr (by simp [h])
      · rcases ih h with h | h
        · exact Or.inl h
        · exact Or.inr (by simp [h])

theorem mem_erase {α : Type} {m : List (Nat × α)} {k : Nat} {e : Nat × α}
    (h : e ∈ erase m k) : e ∈ m ∧ e.1 ≠ k := by
  induction m with
  | nil => simp [erase] at h
  | cons a r ih =>
    obtain ⟨a, v⟩ := a
    simp only [erase] at h
    split at h
    · exact ⟨by simp [(ih h).1], (ih h).2⟩
    · rename_i hk
      rcases List.mem_cons.mp h with h | h
      · subst h; exact ⟨by simp, hk⟩
      · exact ⟨by simp [(ih h).1], (ih h).2⟩

theorem mem_of_get {α : Type} {m : List (Nat × α)} {k : Nat} {x : α} (h : get m k = some x) :
    (k, x) ∈ m := by
  induction m with
  | nil => simp [get] at h
  | cons a r ih =>
    obtain ⟨a, v⟩ := a
    simp only [get] at h
    split at h
    · rename_i hk; simp at h; simp [hk, h]
    · simp [ih h]

theorem not_mem_of_get {α : Type} {m : List (Nat × α)} {k : Nat} (h : get m k = none) :
    ∀ e ∈ m, e.1 ≠ k := by
  induction m with
  | nil => simp
  | cons a r ih =>
    obtain ⟨a, v⟩ := a
    simp only [get] at h
    split at h
    · simp at h
    · rename_i hk
      intro e he
      rcases List.mem_cons.mp he with rfl | he
      · exact hk
      · exact ih h e he

theorem nodup_insert {α : Type} {m : List (Nat × α)} {k : Nat} {x : α}
    (h : (m.map (·.1)).Nodup) : ((insert m k x).map (·.1)).Nodup := by
  induction m with
  | nil => simp [insert]
  | cons a r ih =>
    obtain ⟨a, v⟩ := a
    simp only [List.map_cons, List.nodup_cons] at h
    simp only [insert]
    split
    · simpa using h
    · rename_i hk
      simp only [List.map_cons, List.nodup_cons]
      refine ⟨?_, ih h.2⟩
      intro hm
      obtain ⟨e, he, hee⟩ := List.mem_map.mp hm
      rcases mem_insert he with rfl | he
      · exact hk hee.symm
      · exact h.1 (List.mem_map.mpr ⟨e, he, hee⟩)

theorem nodup_erase {α : Type} {m : List (Nat × α)} {k : Nat}
    (h : (m.map (·.1)).Nodup) : ((erase m k).map (·.1)).Nodup := by
  induction m with
  | nil => simp [erase]
  | cons a r ih =>
    obtain ⟨a, v⟩ := a
    simp only [List.map_cons, List.nodup_cons] at h
    simp only [erase]
    split
    · exact ih h.2
    · simp only [List.map_cons, List.nodup_cons]
      refine ⟨?_, ih h.2⟩
      intro hm
      obtain ⟨e, he, hee⟩ := List.mem_map.mp hm
      exact h.1 (List.mem_map.mpr ⟨e, (mem_erase he).1, hee⟩)

theorem eq_of_nodup {α : Type} {m : List (Nat × α)} (h : (m.map (·.1)).Nodup) {k : Nat} {x y : α}
    (hx : (k, x) ∈ m) (hy : (k, y) ∈ m) : x = y := by
  induction m with
  | nil => simp at hx
  | cons a r ih =>
    simp only [List.map_cons, List.nodup_cons] at h
    rcases List.mem_cons.mp hx with hx | hx <;> rcases List.mem_cons.mp hy with hy | hy
    · rw [← hx] at hy; simp at hy; exact hy.symm
    · exact absurd (List.mem_map.mpr ⟨_, hy, by rw [← hx]⟩) h.1
    · exact absurd (List.mem_map.mpr ⟨_, hx, by rw [← hy]⟩) h.1
    · exact ih h.2 hx hy

/-! ## Saving -/

theorem overwrite_take (c : Bytes) (off n : Nat) (h : off ≤ c.length) :
    overwrite (c.take off) off ((c.drop off).take n) = c.take (off + ((c.drop off).take n).length) := by
  unfold overwrite
  have h1 : (c.take off).length = off := by simp [h]
  rw [h1, Nat.sub_self]
  simp only [List.replicate_zero, List.append_nil]
  have h2 : (c.take off).take off = c.take off := List.take_of_length_le (by omega)
  have h3 : (c.take off).drop (off + ((c.drop off).take n).length) = [] :=
    List.drop_of_length_le (by omega)
  rw [h2, h3, List.append_nil, List.take_add]
  congr 1
  simp

/-- state of a save in progress -/
structure Saving (old : Fs) (c : Bytes) (fs : Fs) (i off : Nat) : Prop where
  wf : fs.Wf
  tmp : fs.tmp = some i
  file : fs.file = old.file
  content : fs.inodes[i]? = some (c.take off)
  off : off ≤ c.length
  keep : ∀ k, old.file = some k → fs.inodes[k]? = old.inodes[k]?

theorem saving_open {fs : Fs} (h : fs.Wf) (c : Bytes) :
    Saving fs c fs.openTrunc.1 fs.openTrunc.2 0 := by
  unfold Fs.openTrunc
  cases ht : fs.tmp with
  | some i =>
    have hi := h.tmp i ht
    refine ⟨⟨?_, ?_, fun k hk hc => h.ne k hk (ht.trans hc)⟩, rfl, rfl, ?_, by omega, ?_⟩
    · intro k hk; simpa using h.file k hk
    · intro k hk; simpa using h.tmp k (ht.trans hk)
    · simp [hi]
    · intro k hk
      have : k ≠ i := by rintro rfl; exact h.ne k hk ht
      simp only
      rw [List.getElem?_set_ne (fun e => this e.symm)]
  | none =>
    refine ⟨⟨?_, ?_, ?_⟩, rfl, rfl, ?_, by omega, ?_⟩
    · intro k hk; have := h.file k hk; simp; omega
    · intro k hk; simp at hk; simp; omega
    · intro k hk hc; simp at hc; have := h.file k hk; omega
    · simp
    · intro k hk
      have := h.file k hk
      simp only
      rw [List.getElem?_append_left this]

theorem saving_write {old : Fs} {c : Bytes} {fs : Fs} {i off : Nat} (h : Saving old c fs i off) (n : Nat) :
    Saving old c (fs.writeAt i off ((c.drop off).take (n + 1))) i
      (off + ((c.drop off).take (n + 1)).length) := by
  have hi := h.wf.tmp i h.tmp
  unfold Fs.writeAt
  refine ⟨⟨?_, ?_, h.wf.ne⟩, h.tmp, h.file, ?_, ?_, ?_⟩
  · intro k hk; simpa using h.wf.file k hk
  · intro k hk; simpa using h.wf.tmp k hk
  · simp only
    rw [List.getElem?_modify_eq, h.content]
    simp only [Option.map_eq_map, Option.map_some]
    rw [overwrite_take c off _ h.off]
  · have := h.off; simp; omega
  · intro k hk
    have hk' : fs.file = some k := h.file.trans hk
    have : i ≠ k := by rintro rfl; exact h.wf.ne i hk' h.tmp
    simp only
    rw [List.getElem?_modify_ne _ _ this]
    exact h.keep k hk

/-- what can be observed while a save is running -/
def SaveInv (old : Fs) (c : Bytes) : Fs × SavePc → Prop
  | (fs, .opn) => fs = old
  | (fs, .wr i off) => Saving old c fs i off
  | (fs, .done) => fs.Wf ∧ fs.read = some c

theorem saveInv_step {old : Fs} (hw : old.Wf) {c : Bytes} {s : Fs × SavePc} (h : SaveInv old c s) (n : Nat) :
    SaveInv old c (saveStep c n s) := by
  obtain ⟨fs, pc⟩ := s
  cases pc with
  | opn =>
    have : fs = old := h
    subst this
    exact saving_open hw c
  | wr i off =>
    have h : Saving old c fs i off := h
    simp only [saveStep]
    split
    · exact saving_write h n
    · rename_i hlt
      have hoff : c.take off = c := List.take_of_length_le (by omega)
      show (fs.rename).Wf ∧ fs.rename.read = some c
      unfold Fs.rename
      rw [h.tmp]
      refine ⟨⟨?_, ?_, ?_⟩, ?_⟩
      · intro k hk; simp at hk; exact hk ▸ h.wf.tmp i h.tmp
      · intro k hk; simp at hk
      · intro k _ hc; simp at hc
      · show fs.inodes[i]? = some c
        rw [h.content, hoff]
  | done => exact h

theorem saveInv_foldl {old : Fs} (hw : old.Wf) {c : Bytes} (ns : List Nat) {s : Fs × SavePc}
    (h : SaveInv old c s) : SaveInv old c (ns.foldl (fun s n => saveStep c n s) s) := by
  induction ns generalizing s with
  | nil => exact h
  | cons n ns ih => exact ih (saveInv_step hw h n)

theorem saveInv_read {old : Fs} {c : Bytes} {s : Fs × SavePc} (h : SaveInv old c s) :
    s.1.read = old.read ∨ s.1.read = some c := by
  obtain ⟨fs, pc⟩ := s
  cases pc with
  | opn => left; have : fs = old := h; rw [this]
  | wr i off =>
    left
    have h : Saving old c fs i off := h
    unfold Fs.read
    rw [h.file]
    cases hf : old.file with
    | none => rfl
    | some k => exact h.keep k hf
  | done => right; exact h.2

theorem saveAll_spec {fs : Fs} (hw : fs.Wf) (c : Bytes) :
    (saveAll fs c).Wf ∧ (saveAll fs c).read = some c := by
  have h0 : SaveInv fs c (fs, .opn) := rfl
  have h1 := saveInv_step hw h0 c.length
  have h2 := saveInv_step hw h1 c.length
  have h3 := saveInv_step hw h2 c.length
  unfold saveAll
  simp only
  split
  · rename_i hc
    subst hc
    have : (saveStep [] 0 (saveStep [] 0 (fs, .opn))).2 = .done := by
      simp [saveStep]
    generalize hs : saveStep [] 0 (saveStep [] 0 (fs, .opn)) = s at *
    obtain ⟨f, pc⟩ := s
    simp at this
    subst this
    exact h2
  · rename_i hc
    have hpos : 0 < c.length := List.length_pos_iff.mpr hc
    have : (saveStep c c.length (saveStep c c.length (saveStep c c.length (fs, .opn)))).2 = .done := by
      have e1 : saveStep c c.length (fs, .opn) = (fs.openTrunc.1, .wr fs.openTrunc.2 0) := rfl
      rw [e1]
      have e2 : saveStep c c.length (fs.openTrunc.1, .wr fs.openTrunc.2 0) =
          (fs.openTrunc.1.writeAt fs.openTrunc.2 0 c, .wr fs.openTrunc.2 c.length) := by
        have hh : List.take (c.length + 1) c = c := List.take_of_length_le (by omega)
        simp only [saveStep, hpos, if_true, List.drop_zero, hh, Nat.zero_add]
      rw [e2]
      simp [saveStep]
    generalize hs : saveStep c c.length (saveStep c c.length (saveStep c c.length (fs, .opn))) = s at *
    obtain ⟨f, pc⟩ := s
    simp at this
    subst this
    exact h3

theorem loadFile_saveAll {cd : Codec J} (hl : cd.Lawful) {fs : Fs} (hw : fs.Wf) (m : List (Nat × J)) :
    loadFile cd (saveAll fs (cd.encode m)) = m := by
  unfold loadFile
  rw [(saveAll_spec hw _).2]
  simp [hl m]

theorem persistZone_spec {cd : Codec J} (hl : cd.Lawful) {fs : Fs} (hw : fs.Wf) (z : Nat) (j : J) :
    (persistZone cd fs z j).Wf ∧ loadFile cd (persistZone cd fs z j) = insert (loadFile cd fs) z j :=
  ⟨(saveAll_spec hw _).1, loadFile_saveAll hl hw _⟩

/-! ## The sequential store -/

structure StoreWf (s : Store J) : Prop where
  fs : s.fs.Wf
  nodup : (s.cache.map (·.1)).Nodup
  cache : ∀ e ∈ s.cache, ∃ j, s.handles[e.2]? = some (e.1, j)

theorem openStore_fs {cd : Codec J} (hl : cd.Lawful) {fs : Fs} (hw : fs.Wf) :
    (openStore cd fs).fs.Wf ∧ loadFile cd (openStore cd fs).fs = loadFile cd fs := by
  unfold openStore
  cases hf : fs.file with
  | some i => exact ⟨hw, rfl⟩
  | none =>
    refine ⟨⟨?_, ?_, ?_⟩, ?_⟩
    · intro k hk; simp at hk; simp; omega
    · intro k hk; have := hw.tmp k hk; simp; omega
    · intro k hk hc
      simp at hk
      have := hw.tmp k hc
      omega
    · simp [loadFile, Fs.read, hf, hl []]

theorem openStore_wf {cd : Codec J} (hl : cd.Lawful) {fs : Fs} (hw : fs.Wf) : StoreWf (openStore cd fs) :=
  ⟨(openStore_fs hl hw).1, by simp [openStore], by simp [openStore]⟩

theorem persistAll_fold (handles : List (Nat × J)) (cache : List (Nat × Nat)) (m : List (Nat × J)) (z : Nat)
    (j : J) (hm : get m z = some j)
    (hc : ∀ e ∈ cache, e.1 = z → handles[e.2]? = some (z, j)) :
    get (cache.foldl (fun m e => match handles[e.2]? with
      | none => m
      | some (_, j) => insert m e.1 j) m) z = some j := by
  induction cache generalizing m with
  | nil => exact hm
  | cons e r ih =>
    simp only [List.foldl_cons]
    refine ih _ ?_ (fun e' he' => hc e' (by simp [he']))
    by_cases hz : e.1 = z
    · rw [hc e (by simp) hz, hz]
      simp [get_insert]
    · cases hh : handles[e.2]? with
      | none => exact hm
      | some p =>
        obtain ⟨a, j'⟩ := p
        simp only
        rw [get_insert, if_neg hz]
        exact hm

theorem storeWf_step {cd : Codec J} (hl : cd.Lawful) (dflt : J) {s : Store J} (h : StoreWf s) (op : Op J) :
    StoreWf (step cd dflt s op) := by
  cases op with
  | jarFor z =>
    simp only [step, jarFor]
    split
    · exact h
    · refine ⟨h.fs, nodup_insert h.nodup, ?_⟩
      intro e he
      rcases mem_insert he with rfl | he
      · simp
      · obtain ⟨j, hj⟩ := h.cache e he
        refine ⟨j, ?_⟩
        have := (List.getElem?_eq_some_iff.mp hj).1
        simp only
        rw [List.getElem?_append_left this]
        exact hj
  | mutate hd f =>
    simp only [step, mutate]
    split
    · exact h
    · rename_i z j hz
      refine ⟨(persistZone_spec hl h.fs _ _).1, h.nodup, ?_⟩
      intro e he
      obtain ⟨j', hj'⟩ := h.cache e he
      simp only
      by_cases hh : hd = e.2
      · subst hh
        rw [hz] at hj'
        simp at hj'
        have := (List.getElem?_eq_some_iff.mp hz).1
        exact ⟨f j, by simp [this, hj'.1]⟩
      · exact ⟨j', by rw [List.getElem?_set_ne hh]; exact hj'⟩
  | release z =>
    simp only [step, release]
    split
    · exact h
    · split
      · exact ⟨h.fs, nodup_erase h.nodup, fun e he => h.cache e (mem_erase he).1⟩
      · exact ⟨(persistZone_spec hl h.fs _ _).1, nodup_erase h.nodup, fun e he => h.cache e (mem_erase he).1⟩
  | remove z =>
    exact ⟨(saveAll_spec h.fs _).1, nodup_erase h.nodup, fun e he => h.cache e (mem_erase he).1⟩
  | persistAll => exact ⟨(saveAll_spec h.fs _).1, h.nodup, h.cache⟩
  | restart => exact openStore_wf hl h.fs

theorem storeWf_run {cd : Codec J} (hl : cd.Lawful) (dflt : J) {s : Store J} (h : StoreWf s)
    (ops : List (Op J)) : StoreWf (run cd dflt s ops) := by
  induction ops generalizing s with
  | nil => exact h
  | cons op ops ih => exact ih (storeWf_step hl dflt h op)

/-- zone `z` is stored as `j` and every cached jar of the zone is `j` -/
structure Durable (cd : Codec J) (s : Store J) (z : Nat) (j : J) : Prop where
  wf : StoreWf s
  disk : get (loadFile cd s.fs) z = some j
  live : ∀ e ∈ s.cache, e.1 = z → s.handles[e.2]? = some (z, j)

theorem durable_step {cd : Codec J} (hl : cd.Lawful) (dflt : J) {s : Store J} {z : Nat} {j : J}
    (h : Durable cd s z j) (op : Op J) (hn : ¬ Changes s op z) : Durable cd (step cd dflt s op) z j := by
  refine ⟨storeWf_step hl dflt h.wf op, ?_, ?_⟩
  · cases op with
    | jarFor z' => simp only [step, jarFor]; split <;> exact h.disk
    | mutate hd f =>
      simp only [step, mutate]
      split
      · exact h.disk
      · rename_i z' j' hz
        have : z' ≠ z := by rintro rfl; exact hn ⟨j', hz⟩
        simp only
        rw [(persistZone_spec hl h.wf.fs _ _).2, get_insert, if_neg this]
        exact h.disk
    | release z' =>
      simp only [step, release]
      split
      · exact h.disk
      · rename_i hd hget
        split
        · exact h.disk
        · rename_i a j' hz
          simp only
          rw [(persistZone_spec hl h.wf.fs _ _).2, get_insert]
          split
          · rename_i hzz
            subst hzz
            have := h.live _ (mem_of_get hget) rfl
            simp only at this
            rw [hz] at this
            simp at this
            rw [this.2]
          · exact h.disk
    | remove z' =>
      have : z' ≠ z := hn
      simp only [step, removeZone]
      rw [loadFile_saveAll hl h.wf.fs, get_erase, if_neg this]
      exact h.disk
    | persistAll =>
      simp only [step, persistAll]
      rw [loadFile_saveAll hl h.wf.fs]
      exact persistAll_fold s.handles s.cache _ z j h.disk h.live
    | restart =>
      simp only [step, restart]
      rw [(openStore_fs hl h.wf.fs).2]
      exact h.disk
  · cases op with
    | jarFor z' =>
      simp only [step, jarFor]
      split
      · exact h.live
      · intro e he hez
        rcases mem_insert he with rfl | he
        · simp only at hez
          subst hez
          simp [h.disk]
        · have h1 := h.live e he hez
          have := (List.getElem?_eq_some_iff.mp h1).1
          simp only
          rw [List.getElem?_append_left this]
          exact h1
    | mutate hd f =>
      simp only [step, mutate]
      split
      · exact h.live
      · rename_i z' j' hz
        have hne : z' ≠ z := by rintro rfl; exact hn ⟨j', hz⟩
        intro e he hez
        have h1 := h.live e he hez
        have : hd ≠ e.2 := by
          rintro rfl
          rw [hz] at h1
          simp at h1
          exact hne h1.1
        simp only
        rw [List.getElem?_set_ne this]
        exact h1
    | release z' =>
      simp only [step, release]
      split
      · exact h.live
      · split
        · exact fun e he => h.live e (mem_erase he).1
        · exact fun e he => h.live e (mem_erase he).1
    | remove z' => exact fun e he => h.live e (mem_erase he).1
    | persistAll => exact h.live
    | restart => intro e he; simp [step, restart, openStore] at he

theorem durable_run {cd : Codec J} (hl : cd.Lawful) (dflt : J) {s : Store J} {z : Nat} {j : J}
    (h : Durable cd s z j) (ops : List (Op J)) (hn : NoChange cd dflt s z ops) :
    Durable cd (run cd dflt s ops) z j := by
  induction ops generalizing s with
  | nil => exact h
  | cons op ops ih => exact ih (durable_step hl dflt h op hn.1) hn.2

theorem reopened_eq {cd : Codec J} (hl : cd.Lawful) (dflt : J) {s : Store J} (hw : s.fs.Wf) (z : Nat) :
    reopened cd dflt s z = some ((get (loadFile cd s.fs) z).getD dflt) := by
  unfold reopened restart
  have h := (openStore_fs hl hw).2
  have hc : (openStore cd s.fs).cache = [] := rfl
  have hh : (openStore cd s.fs).handles = [] := rfl
  simp only [jarFor, hc, get, hh, h]
  simp

/-! ## Concurrency -/

theorem cache_step {cd : Codec J} {dflt : J} {m : Machine J} {l : Label J} {z h : Nat}
    (hc : get m.cache z = some h) (hn : ¬ Evicts m l z) : get (mstep cd dflt m l).cache z = some h := by
  cases l with
  | start t op =>
    simp only [mstep]
    split <;> exact hc
  | run t n =>
    simp only [mstep]
    split
    · exact hc
    · rename_i pc hpc
      cases pc with
      | idle => exact hc
      | got _ _ => exact hc
      | look1 z' => simp only [stepPc]; split <;> exact hc
      | look2 z' => exact hc
      | look3 z' j =>
        simp only [stepPc]
        split
        · exact hc
        · rename_i hnone
          simp only
          rw [get_insert]
          split
          · rename_i e; subst e; rw [hc] at hnone; simp at hnone
          · exact hc
      | mut1 h' f =>
        simp only [stepPc]
        split
        · exact hc
        · split <;> exact hc
      | pers lk z' j => exact hc
      | saving lk c spc => cases spc <;> exact hc
      | rel1 z' =>
        have hz : z' ≠ z := by
          rintro rfl; exact hn ⟨t, n, rfl, Or.inl hpc⟩
        simp only [stepPc]
        split
        · exact hc
        · simp only
          rw [get_erase, if_neg hz]; exact hc
      | rel2 z' h' =>
        simp only [stepPc]
        split
        · exact hc
        · split <;> exact hc
      | rem1 z' =>
        have hz : z' ≠ z := by
          rintro rfl; exact hn ⟨t, n, rfl, Or.inr hpc⟩
        simp only [stepPc]
        rw [get_erase, if_neg hz]; exact hc
      | rem2 z' => exact hc

theorem cache_run {cd : Codec J} {dflt : J} {m : Machine J} {z h : Nat} (ls : List (Label J))
    (hc : get m.cache z = some h) (hn : NoEvict cd dflt m z ls) :
    get (mrun cd dflt m ls).cache z = some h := by
  induction ls generalizing m with
  | nil => exact hc
  | cons l ls ih => exact ih (cache_step hc hn.1) hn.2

theorem returns_cache {cd : Codec J} {dflt : J} {m : Machine J} {l : Label J} {z h : Nat}
    (hr : Returns cd dflt m l z h) : get (mstep cd dflt m l).cache z = some h := by
  obtain ⟨t, n, rfl, hpc, hgot⟩ := hr
  have hlt : t < m.threads.length := by
    rcases hpc with hpc | ⟨j, hpc⟩ <;> exact (List.getElem?_eq_some_iff.mp hpc).1
  rcases hpc with hpc | ⟨j, hpc⟩
  · simp only [mstep, hpc, stepPc] at hgot ⊢
    split at hgot
    · rename_i h' hget
      simp [hlt] at hgot
      rw [hget]
      simp [hgot]
    · simp [hlt] at hgot
  · simp only [mstep, hpc, stepPc] at hgot ⊢
    split at hgot
    · rename_i h' hget
      simp [hlt] at hgot
      rw [hget]
      simp [hgot]
    · rename_i hget
      simp [hlt] at hgot
      simp only
      rw [get_insert, if_pos rfl, hgot]

/-! ## SQLite -/

open Verif.Cookies (Cookie Origin Jar Inv Uniq SameId Holds Unexpired bucketOf setBucket)

theorem insertRows_ok (db rs : List Row) (h1 : ∀ x ∈ db, ∀ r ∈ rs, keyConflict x r = false)
    (h2 : rs.Pairwise (fun a b => keyConflict a b = false)) : insertRows db rs = some (db ++ rs) := by
  induction rs generalizing db with
  | nil => simp [insertRows]
  | cons r rs ih =>
    have h2' := List.pairwise_cons.mp h2
    simp only [insertRows]
    have hany : db.any (fun x => keyConflict x r) = false := by
      rw [List.any_eq_false]
      intro x hx
      simp [h1 x hx r (by simp)]
    rw [hany]
    simp only [Bool.false_eq_true, if_false]
    rw [ih (db ++ [r])]
    · simp
    · intro x hx r' hr'
      rcases List.mem_append.mp hx with hx | hx
      · exact h1 x hx r' (by simp [hr'])
      · simp at hx; subst hx; exact h2'.1 r' hr'
    · exact h2'.2

theorem mem_rowsOf (z : Nat) (jar : Jar) (r : Row) :
    r ∈ rowsOf z jar ↔ r.zone = z ∧ Holds jar r.origin r.cookie := by
  unfold rowsOf Holds
  rw [List.mem_flatMap]
  constructor
  · rintro ⟨⟨o, b⟩, he, hr⟩
    obtain ⟨c, hc, rfl⟩ := List.mem_map.mp hr
    exact ⟨rfl, b, he, hc⟩
  · rintro ⟨hz, b, hb, hc⟩
    refine ⟨(r.origin, b), hb, List.mem_map.mpr ⟨r.cookie, hc, ?_⟩⟩
    cases r; simp at hz; simp [hz]

theorem rowsOf_pairwise (z : Nat) {jar : Jar} (h : Inv jar) :
    (rowsOf z jar).Pairwise (fun a b => ¬ (a.origin = b.origin ∧ SameId a.cookie b.cookie)) := by
  obtain ⟨hk, hu⟩ := h
  unfold rowsOf
  generalize jar.entries = es at hk hu
  induction es with
  | nil => simp
  | cons e r ih =>
    obtain ⟨k, b⟩ := e
    simp only [List.map_cons, List.nodup_cons] at hk
    simp only [List.flatMap_cons]
    refine List.pairwise_append.mpr ⟨?_, ih hk.2 (fun o b hb => hu o b (by simp [hb])), ?_⟩
    · rw [List.pairwise_map]
      refine List.Pairwise.imp ?_ (hu k b (by simp))
      intro x y hxy hh
      exact hxy hh.2
    · intro x hx y hy hh
      obtain ⟨c, _, rfl⟩ := List.mem_map.mp hx
      obtain ⟨⟨k', b'⟩, hm, hm'⟩ := List.mem_flatMap.mp hy
      obtain ⟨c', _, rfl⟩ := List.mem_map.mp hm'
      exact hk.1 (List.mem_map.mpr ⟨_, hm, hh.1.symm⟩)

theorem saveZone_eq (db : List Row) (z : Nat) {jar : Jar} (h : Inv jar) :
    saveZone db z jar = db.filter (fun r => decide (r.zone ≠ z)) ++ rowsOf z jar := by
  unfold saveZone
  rw [insertRows_ok]
  · intro x hx r hr
    have h1 := (List.mem_filter.mp hx).2
    have h2 := ((mem_rowsOf z jar r).mp hr).1
    simp at h1
    simp only [keyConflict, decide_eq_false_iff_not]
    rintro ⟨h3, _⟩
    exact h1 (h3.trans h2)
  · refine List.Pairwise.imp ?_ (rowsOf_pairwise z h)
    intro a b hab
    simp only [keyConflict, decide_eq_false_iff_not]
    rintro ⟨_, h1, h2, h3, h4, _⟩
    exact hab ⟨h1, h2, h4, h3⟩

theorem saveZone_filter (db : List Row) (z : Nat) {jar : Jar} (h : Inv jar) :
    (saveZone db z jar).filter (fun r => decide (r.zone = z)) = rowsOf z jar := by
  rw [saveZone_eq db z h, List.filter_append, List.filter_filter]
  have h1 : db.filter (fun r => decide (r.zone = z) && decide (r.zone ≠ z)) = [] := by
    rw [List.filter_eq_nil_iff]
    intro r _
    by_cases hz : r.zone = z <;> simp [hz]
  have h2 : (rowsOf z jar).filter (fun r => decide (r.zone = z)) = rowsOf z jar := by
    rw [List.filter_eq_self]
    intro r hr
    simpa using ((mem_rowsOf z jar r).mp hr).1
  rw [h1, h2, List.nil_append]

theorem pushRow_keys {es : List (Origin × List Cookie)} (h : (es.map (·.1)).Nodup) (r : Row) :
    ((pushRow es r).map (·.1)).Nodup := Verif.Cookies.keys_setBucket h

theorem foldl_pushRow (rows : List Row) (es : List (Origin × List Cookie)) (h : (es.map (·.1)).Nodup) :
    ((rows.foldl pushRow es).map (·.1)).Nodup ∧
    ∀ o, bucketOf (rows.foldl pushRow es) o =
      bucketOf es o ++ (rows.filter (fun r => decide (r.origin = o))).map (·.cookie) := by
  induction rows generalizing es with
  | nil => exact ⟨h, by simp⟩
  | cons r rows ih =>
    obtain ⟨h1, h2⟩ := ih (pushRow es r) (pushRow_keys h r)
    refine ⟨h1, fun o => ?_⟩
    simp only [List.foldl_cons]
    rw [h2, pushRow, Verif.Cookies.bucketOf_setBucket]
    by_cases ho : o = r.origin
    · subst ho; simp
    · have : ¬ r.origin = o := fun e => ho e.symm
      simp [ho, this]

theorem inv_loadRows {z : Nat} {jar : Jar} (h : Inv jar) {rows : List Row}
    (hp : rows.Perm (rowsOf z jar)) (now : Int) : Inv (loadRows rows now) := by
  have hpw : rows.Pairwise (fun a b => ¬ (a.origin = b.origin ∧ SameId a.cookie b.cookie)) := by
    refine (List.Perm.pairwise_iff ?_ hp).mpr (rowsOf_pairwise z h)
    intro a b hab hh
    exact hab ⟨hh.1.symm, hh.2.symm⟩
  obtain ⟨h1, h2⟩ := foldl_pushRow rows [] (by simp)
  have hbase : Inv { entries := rows.foldl pushRow [], policy := .allow } := by
    refine ⟨h1, ?_⟩
    intro o b hb
    have := Verif.Cookies.bucketOf_eq h1 hb
    rw [h2 o] at this
    simp only [bucketOf, List.nil_append] at this
    rw [← this]
    unfold Uniq
    rw [List.pairwise_map, List.pairwise_filter]
    refine List.Pairwise.imp ?_ hpw
    intro a b hab ha hb' hs
    simp at ha hb'
    exact hab ⟨ha.trans hb'.symm, hs⟩
  exact Verif.Cookies.inv_step ⟨⟨fun _ => none, fun _ => false⟩, fun _ => none⟩ hbase (.purge now)

theorem holds_loadRows {z : Nat} {jar : Jar} (h : Inv jar) {rows : List Row}
    (hp : rows.Perm (rowsOf z jar)) (now : Int) (o : Origin) (c : Cookie) :
    Holds (loadRows rows now) o c ↔ Holds jar o c ∧ Unexpired now c := by
  unfold loadRows
  rw [Verif.Cookies.holds_purge]
  obtain ⟨h1, h2⟩ := foldl_pushRow rows [] (by simp)
  rw [Verif.Cookies.holds_iff (jar := { entries := rows.foldl pushRow [], policy := .allow }) h1]
  simp only
  rw [h2 o]
  simp only [bucketOf, List.nil_append, List.mem_map, List.mem_filter]
  constructor
  · rintro ⟨⟨r, ⟨hr, ho⟩, rfl⟩, hu⟩
    simp at ho
    exact ⟨ho ▸ ((mem_rowsOf z jar r).mp (hp.mem_iff.mp hr)).2, hu⟩
  · rintro ⟨hh, hu⟩
    refine ⟨⟨⟨z, o, c⟩, ⟨hp.mem_iff.mpr ((mem_rowsOf z jar _).mpr ⟨rfl, hh⟩), by simp⟩, rfl⟩, hu⟩

theorem sqlJar_inv {env : Verif.Cookies.Env} {jar : Jar} (h : SqlJar env jar) : Inv jar := by
  induction h with
  | fresh => exact Verif.Cookies.inv_new _
  | call op _ ih => exact Verif.Cookies.inv_step env ih op
  | reload db z rows now _ hp ih =>
    rw [saveZone_filter db z ih] at hp
    exact inv_loadRows ih hp now

end Verif.CookieStore
