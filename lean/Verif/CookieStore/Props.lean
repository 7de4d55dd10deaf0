import Verif.CookieStore.Lemmas
import Verif.Cookies.Props
set_option linter.unusedVariables false
/-! # Cookie stores: the properties (C15-C18) -/
namespace Verif.CookieStore
variable {J : Type}

/-! ## A concrete codec for the examples -/

/-- toy parser: numbers in unary (byte 1), each closed by 2, the document closed by 8 -/
def toyParse : Bytes → Nat → Option Nat → List (Nat × Nat) → Option (List (Nat × Nat))
  | [], _, _, _ => none
  | b :: r, cur, zone, acc =>
    if b = 1 then toyParse r (cur + 1) zone acc
    else if b = 2 then
      match zone with
      | none => toyParse r 0 (some cur) acc
      | some z => toyParse r 0 none (acc ++ [(z, cur)])
    else if b = 8 ∧ r = [] ∧ zone = none ∧ cur = 0 then some acc
    else none

def toyEntry (e : Nat × Nat) : Bytes := List.replicate e.1 1 ++ 2 :: (List.replicate e.2 1 ++ [2])

/-- a jar is a number; a stand-in for JSON -/
def toy : Codec Nat where
  encode m := m.flatMap toyEntry ++ [8]
  decode b := toyParse b 0 none []

theorem toyParse_ones (n : Nat) (r : Bytes) (cur : Nat) (zone : Option Nat) (acc : List (Nat × Nat)) :
    toyParse (List.replicate n 1 ++ r) cur zone acc = toyParse r (cur + n) zone acc := by
  induction n generalizing cur with
  | zero => simp
  | succ n ih =>
    rw [List.replicate_succ, List.cons_append]
    show (if (1 : UInt8) = 1 then _ else _) = _
    rw [if_pos rfl, ih]
    congr 1
    omega

theorem toyParse_entries (m acc : List (Nat × Nat)) :
    toyParse (m.flatMap toyEntry ++ [8]) 0 none acc = some (acc ++ m) := by
  induction m generalizing acc with
  | nil => simp [toyParse]
  | cons e m ih =>
    rw [List.flatMap_cons, List.append_assoc]
    show toyParse (toyEntry e ++ (m.flatMap toyEntry ++ [8])) 0 none acc = _
    rw [toyEntry, List.append_assoc, toyParse_ones, List.cons_append]
    show toyParse ((List.replicate e.2 1 ++ [2]) ++ (m.flatMap toyEntry ++ [8])) 0 (some (0 + e.1)) acc = _
    rw [List.append_assoc, toyParse_ones]
    show toyParse (m.flatMap toyEntry ++ [8]) 0 none (acc ++ [(0 + e.1, 0 + e.2)]) = _
    rw [ih]
    simp

theorem toy_lawful : toy.Lawful := fun m => by simp [toy, toyParse_entries]

/-- an existing store file with zones 0 and 1 -/
def exFs : Fs := ⟨[toy.encode [(0, 5), (1, 7)]], some 0, none⟩

theorem exFs_wf : exFs.Wf :=
  ⟨fun i h => by simp [exFs] at h; subst h; simp [exFs], fun i h => by simp [exFs] at h,
   fun i _ h => by simp [exFs] at h⟩

/-! ## C16: a crash never leaves a half-written store file -/

/-- Whatever the file contained, whatever is being saved and however the operating system cuts the
writes, a save stopped after any number of system calls leaves either the previous file or the complete
new one; and when it reports completion it is the new one.
Missing: two saves at the same time, see `C16_concurrent_violated`. -/
theorem C16_crash_atomic_partial {fs : Fs} (hw : fs.Wf) (c : Bytes) (ns : List Nat) :
    let s := ns.foldl (fun s n => saveStep c n s) (fs, .opn)
    (s.1.read = fs.read ∨ s.1.read = some c) ∧ (s.2 = .done → s.1.read = some c) := by
  have h : SaveInv fs c (ns.foldl (fun s n => saveStep c n s) (fs, .opn)) :=
    saveInv_foldl hw ns (rfl : SaveInv fs c (fs, .opn))
  refine ⟨saveInv_read h, ?_⟩
  intro hd
  generalize ns.foldl (fun s n => saveStep c n s) (fs, .opn) = s at h hd
  obtain ⟨f, pc⟩ := s
  simp only at hd
  subst hd
  exact h.2

/-- number of system calls still to be made -/
def remaining (c : Bytes) : SavePc → Nat
  | .opn => c.length + 2
  | .wr _ off => c.length - off + 1
  | .done => 0

/-- A save always completes, after at most one system call per byte plus two. -/
theorem C16_save_completes (fs : Fs) (c : Bytes) (ns : List Nat) (h : c.length + 2 ≤ ns.length) :
    (ns.foldl (fun s n => saveStep c n s) (fs, .opn)).2 = .done := by
  have key : ∀ (ns : List Nat) (s : Fs × SavePc), remaining c s.2 ≤ ns.length →
      (ns.foldl (fun s n => saveStep c n s) s).2 = .done := by
    intro ns
    induction ns with
    | nil =>
      rintro ⟨f, pc⟩ h
      cases pc <;> simp [remaining] at h ⊢
    | cons n ns ih =>
      rintro ⟨f, pc⟩ h
      refine ih _ ?_
      cases pc with
      | opn => simp [remaining, saveStep] at h ⊢; omega
      | wr i off =>
        simp only [saveStep]
        split
        · simp [remaining] at h ⊢; omega
        · simp [remaining]
      | done => simp [remaining, saveStep]
  exact key ns (fs, .opn) h

example : (List.foldl (fun s n => saveStep [1, 2, 3] n s) (exFs, .opn) [0, 0, 0]).1.read = exFs.read ∧
    (List.foldl (fun s n => saveStep [1, 2, 3] n s) (exFs, .opn) [0, 0, 0, 0, 0]).1.read = some [1, 2, 3] := by
  decide

/-- two zones, each with a provisioned jar, two threads -/
def exMachine : Machine Nat :=
  { fs := exFs, cache := [(0, 0), (1, 1)], handles := [(0, 5), (1, 7)], locked := [],
    threads := [.idle, .idle] }

/-- the machine above is what two `jar_for` calls produce from the file -/
example : (run toy 0 (openStore toy exFs) [.jarFor 0, .jarFor 1]).cache = exMachine.cache ∧
    (run toy 0 (openStore toy exFs) [.jarFor 0, .jarFor 1]).handles = exMachine.handles ∧
    (run toy 0 (openStore toy exFs) [.jarFor 0, .jarFor 1]).fs = exMachine.fs := by decide

/-- thread 0 has written its temporary file when thread 1 opens (and empties) the same one; thread 0
then renames it into place -/
def exOverlap : List (Label Nat) :=
  [.start 0 (.mutate 0 (· + 1)), .start 1 (.mutate 1 (· + 1)),
   .run 0 0, .run 0 0, .run 0 99, .run 0 99,
   .run 1 0, .run 1 0, .run 1 0,
   .run 0 0]

/-- Two zones saving at the same moment share one temporary file: after this schedule the store file is
empty, although it was complete before and nobody removed anything.  A crash here loses every zone. -/
theorem C16_concurrent_violated :
    ∃ ls : List (Label Nat), exMachine.fs.read = some (toy.encode [(0, 5), (1, 7)]) ∧
      (mrun toy 0 exMachine ls).fs.read = some [] ∧
      loadFile toy (mrun toy 0 exMachine ls).fs = [] :=
  ⟨exOverlap, by decide, by decide, by decide⟩

/-! ## C15: acknowledged changes survive a restart -/

/-- JSON store: when a change made through any jar returns, a fresh process sees exactly the changed
jar. -/
theorem C15_json_immediate {cd : Codec J} (hl : cd.Lawful) (dflt : J) {fs : Fs} (hw : fs.Wf)
    (ops : List (Op J)) (h : Nat) (f : J → J) {z : Nat} {j : J}
    (hh : (run cd dflt (openStore cd fs) ops).handles[h]? = some (z, j)) :
    reopened cd dflt (run cd dflt (openStore cd fs) (ops ++ [.mutate h f])) z = some (f j) := by
  have hs := storeWf_run hl dflt (openStore_wf hl hw) ops
  have hrun : run cd dflt (openStore cd fs) (ops ++ [.mutate h f]) =
      mutate cd (run cd dflt (openStore cd fs) ops) h f := by
    simp [run, List.foldl_append, step]
  rw [hrun]
  have hs' : StoreWf (mutate cd (run cd dflt (openStore cd fs) ops) h f) :=
    storeWf_step hl dflt hs (.mutate h f)
  rw [reopened_eq hl dflt hs'.fs]
  simp only [mutate, hh]
  rw [(persistZone_spec hl hs.fs _ _).2, get_insert, if_pos rfl]
  rfl

/-- JSON store, calls not overlapping: a change made through the jar the store currently hands out for
zone `z` is still there after any further history that does not itself change zone `z` — lookups,
releases of any zone, `persist_all`, changes to and removals of other zones, and any number of restarts.
Missing: changes through a jar that is no longer the store's (`C15_stale_handle_violated`), overlapping
calls (`C15_stale_provision_violated`, `C18_concurrent_violated`), I/O errors (only logged). -/
theorem C15_json_durable_partial {cd : Codec J} (hl : cd.Lawful) (dflt : J) {fs : Fs} (hw : fs.Wf)
    (ops : List (Op J)) {z h : Nat} {j : J} (f : J → J)
    (hc : get (run cd dflt (openStore cd fs) ops).cache z = some h)
    (hh : (run cd dflt (openStore cd fs) ops).handles[h]? = some (z, j))
    (later : List (Op J))
    (hn : NoChange cd dflt (run cd dflt (openStore cd fs) (ops ++ [.mutate h f])) z later) :
    reopened cd dflt (run cd dflt (openStore cd fs) (ops ++ [.mutate h f] ++ later)) z = some (f j) := by
  have hs := storeWf_run hl dflt (openStore_wf hl hw) ops
  have hrun : run cd dflt (openStore cd fs) (ops ++ [.mutate h f]) =
      mutate cd (run cd dflt (openStore cd fs) ops) h f := by
    simp [run, List.foldl_append, step]
  have hrun2 : run cd dflt (openStore cd fs) (ops ++ [.mutate h f] ++ later) =
      run cd dflt (run cd dflt (openStore cd fs) (ops ++ [.mutate h f])) later := by
    simp [run, List.foldl_append]
  rw [hrun2]
  rw [hrun] at hn ⊢
  have hd : Durable cd (mutate cd (run cd dflt (openStore cd fs) ops) h f) z (f j) := by
    refine ⟨storeWf_step hl dflt hs (.mutate h f), ?_, ?_⟩
    · simp only [mutate, hh]
      rw [(persistZone_spec hl hs.fs _ _).2, get_insert, if_pos rfl]
    · intro e he hez
      simp only [mutate, hh] at he ⊢
      have h1 := mem_of_get hc
      have h2 : (z, e.2) ∈ (run cd dflt (openStore cd fs) ops).cache := hez ▸ he
      have h3 := eq_of_nodup hs.nodup h2 h1
      rw [h3]
      have := (List.getElem?_eq_some_iff.mp hh).1
      simp [this]
  have hfin := durable_run hl dflt hd later hn
  rw [reopened_eq hl dflt hfin.wf.fs, hfin.disk]
  rfl

/-- A removed zone starts from an empty jar after a restart. -/
theorem C15_json_removed {cd : Codec J} (hl : cd.Lawful) (dflt : J) {fs : Fs} (hw : fs.Wf)
    (ops : List (Op J)) (z : Nat) :
    reopened cd dflt (run cd dflt (openStore cd fs) (ops ++ [.remove z])) z = some dflt := by
  have hs := storeWf_run hl dflt (openStore_wf hl hw) ops
  have hrun : run cd dflt (openStore cd fs) (ops ++ [.remove z]) =
      removeZone cd (run cd dflt (openStore cd fs) ops) z := by
    simp [run, List.foldl_append, step]
  have hs' : StoreWf (removeZone cd (run cd dflt (openStore cd fs) ops) z) :=
    storeWf_step hl dflt hs (.remove z)
  rw [hrun, reopened_eq hl dflt hs'.fs]
  simp only [removeZone]
  rw [loadFile_saveAll hl hs.fs, get_erase, if_pos rfl]
  rfl

/-- The hypotheses are met by a real history: provision both zones, change zone 0, then release it,
change zone 1, flush, restart and look zone 0 up again. -/
example : get (run toy 0 (openStore toy exFs) [.jarFor 0, .jarFor 1]).cache 0 = some 0 ∧
    (run toy 0 (openStore toy exFs) [.jarFor 0, .jarFor 1]).handles[0]? = some (0, 5) ∧
    NoChange toy 0 (run toy 0 (openStore toy exFs) ([.jarFor 0, .jarFor 1] ++ [.mutate 0 (· + 1)])) 0
      [.release 0, .mutate 1 (· + 3), .persistAll, .restart, .jarFor 0] ∧
    reopened toy 0 (run toy 0 (openStore toy exFs) ([.jarFor 0, .jarFor 1] ++ [.mutate 0 (· + 1)] ++
      [.release 0, .mutate 1 (· + 3), .persistAll, .restart, .jarFor 0])) 0 = some 6 := by
  refine ⟨by decide, by decide, ⟨by simp [Changes], ?_, by simp [Changes], by simp [Changes],
    by simp [Changes], trivial⟩, by decide⟩
  rintro ⟨j, hj⟩
  have : (step toy 0 (run toy 0 (openStore toy exFs) ([.jarFor 0, .jarFor 1] ++ [.mutate 0 (· + 1)]))
    (.release 0)).handles[1]? = some (1, 7) := by decide
  rw [this] at hj
  simp at hj

/-- A jar kept across `release_zone` is no longer the store's: the tab keeps changing it (each change is
acknowledged and written), the zone is provisioned again, and the next flush of the new jar erases the
change. -/
theorem C15_stale_handle_violated :
    let s := run toy 0 (openStore toy exFs) [.jarFor 0, .release 0, .jarFor 0, .mutate 0 (· + 10)]
    reopened toy 0 s 0 = some 15 ∧ reopened toy 0 (step toy 0 s .persistAll) 0 = some 5 := by
  decide

/-- thread 0 loads zone 0 from disk and is preempted; thread 1 provisions, changes and releases the zone
(its change is acknowledged); thread 0 then installs the jar it loaded before, adds a change of its own,
and the file now lacks thread 1's change -/
def exStale : List (Label Nat) :=
  [.start 0 (.jarFor 0), .run 0 0, .run 0 0,
   .start 1 (.jarFor 0), .run 1 0, .run 1 0, .run 1 0,
   .start 1 (.mutate 0 (· + 10)), .run 1 0, .run 1 0, .run 1 99, .run 1 99, .run 1 0, .run 1 0,
   .start 1 (.release 0), .run 1 0, .run 1 0, .run 1 0, .run 1 99, .run 1 99, .run 1 0, .run 1 0,
   .run 0 0,
   .start 0 (.mutate 1 (· + 1)), .run 0 0, .run 0 0, .run 0 99, .run 0 99, .run 0 0, .run 0 0]

theorem C15_stale_provision_violated :
    let m : Machine Nat := ⟨exFs, [], [], [], [.idle, .idle]⟩
    get (loadFile toy (mrun toy 0 m (exStale.take 22)).fs) 0 = some 15 ∧
    get (loadFile toy (mrun toy 0 m exStale).fs) 0 = some 6 := by
  decide

/-- SQLite store: saving a jar and loading it back, in whatever order the database returns the rows,
gives exactly the cookies that have not expired, each under its origin. This holds for any jar built
over any number of sessions, whatever else the database contains. -/
theorem C15_sqlite_roundtrip {env : Verif.Cookies.Env} {jar : Verif.Cookies.Jar} (h : SqlJar env jar)
    (db : List Row) (z : Nat) (rows : List Row) (now : Int)
    (hp : rows.Perm ((saveZone db z jar).filter (fun r => decide (r.zone = z)))) (o : Verif.Cookies.Origin)
    (c : Verif.Cookies.Cookie) :
    Verif.Cookies.Holds (loadRows rows now) o c ↔
      Verif.Cookies.Holds jar o c ∧ Verif.Cookies.Unexpired now c := by
  rw [saveZone_filter db z (sqlJar_inv h)] at hp
  exact holds_loadRows (sqlJar_inv h) hp now o c

/-- The uniqueness of C07 also holds in jars that went through the database. -/
theorem C15_sqlite_unique {env : Verif.Cookies.Env} {jar : Verif.Cookies.Jar} (h : SqlJar env jar)
    (o : Verif.Cookies.Origin) (b : List Verif.Cookies.Cookie) (hb : (o, b) ∈ jar.entries) :
    b.Pairwise (fun x y => ¬ Verif.Cookies.SameId x y) ∧ (jar.entries.map (·.1)).Nodup := by
  have := sqlJar_inv h
  exact ⟨this.2 o b hb, this.1⟩

/-- The third-party policy a user set on the jar is not stored: after a restart it is back to the
default. -/
theorem C15_sqlite_policy_violated :
    ∃ jar : Verif.Cookies.Jar, jar.policy = .block ∧
      ∀ db z rows now, rows.Perm ((saveZone db z jar).filter (fun r => decide (r.zone = z))) →
        (loadRows rows now).policy ≠ jar.policy :=
  ⟨Verif.Cookies.new .block, rfl, fun db z rows now _ => by
    show Verif.Cookies.Policy.allow ≠ .block
    decide⟩

/-! ## C17: one live jar per zone -/

/-- Whatever the threads do and however they are scheduled: two completed `jar_for(z)` calls with no
release or removal of `z` in between return the same jar. -/
theorem C17_same_jar (cd : Codec J) (dflt : J) (m : Machine J) (l : Label J) (ls : List (Label J))
    (l' : Label J) {z h h' : Nat} (hr : Returns cd dflt m l z h)
    (hn : NoEvict cd dflt (mstep cd dflt m l) z (ls ++ [l']))
    (hr' : Returns cd dflt (mrun cd dflt (mstep cd dflt m l) ls) l' z h') : h = h' := by
  have h1 := returns_cache hr
  have h2 := cache_run (ls ++ [l']) h1 hn
  have h3 := returns_cache hr'
  have : mrun cd dflt (mstep cd dflt m l) (ls ++ [l']) =
      mstep cd dflt (mrun cd dflt (mstep cd dflt m l) ls) l' := by
    simp [mrun, List.foldl_append]
  rw [this] at h2
  rw [h2] at h3
  exact Option.some.inj h3

/-- Both threads miss the cache and both load; the second to arrive gets the first one's jar. -/
example :
    let m : Machine Nat := ⟨exFs, [], [], [], [.look3 0 5, .look3 0 5]⟩
    Returns toy 0 m (.run 0 0) 0 0 ∧ NoEvict toy 0 (mstep toy 0 m (.run 0 0)) 0 ([] ++ [.run 1 0]) ∧
    Returns toy 0 (mrun toy 0 (mstep toy 0 m (.run 0 0)) []) (.run 1 0) 0 0 := by
  refine ⟨⟨0, 0, rfl, Or.inr ⟨5, rfl⟩, rfl⟩, ⟨?_, trivial⟩, ⟨1, 0, rfl, Or.inr ⟨5, rfl⟩, rfl⟩⟩
  rintro ⟨t, n, he, h⟩
  simp only [Label.run.injEq] at he
  obtain ⟨rfl, rfl⟩ := he
  rcases h with h | h <;> simp [mstep, stepPc, get] at h

/-! ## C18: zones do not overwrite each other -/

/-- JSON store, calls not overlapping: a call that is not about zone `z` leaves what a fresh process
would load for `z` as it was.
Missing: overlapping calls, see `C18_concurrent_violated`. -/
theorem C18_json_partial {cd : Codec J} (hl : cd.Lawful) (dflt : J) {fs : Fs} (hw : fs.Wf)
    (ops : List (Op J)) (op : Op J) (z : Nat)
    (hn : ¬ Writes (run cd dflt (openStore cd fs) ops) op z) :
    reopened cd dflt (run cd dflt (openStore cd fs) (ops ++ [op])) z =
      reopened cd dflt (run cd dflt (openStore cd fs) ops) z := by
  have hs := storeWf_run hl dflt (openStore_wf hl hw) ops
  have hrun : run cd dflt (openStore cd fs) (ops ++ [op]) =
      step cd dflt (run cd dflt (openStore cd fs) ops) op := by
    simp [run, List.foldl_append]
  rw [hrun]
  generalize run cd dflt (openStore cd fs) ops = s at hs hn
  rw [reopened_eq hl dflt hs.fs, reopened_eq hl dflt (storeWf_step hl dflt hs op).fs]
  congr 2
  cases op with
  | jarFor z' => simp only [step, jarFor]; split <;> rfl
  | mutate h f =>
    simp only [step, mutate]
    split
    · rfl
    · rename_i z' j hz
      have : z' ≠ z := by rintro rfl; exact hn ⟨j, hz⟩
      simp only
      rw [(persistZone_spec hl hs.fs _ _).2, get_insert, if_neg this]
  | release z' =>
    have : z' ≠ z := hn
    simp only [step, release]
    split
    · rfl
    · split
      · rfl
      · simp only
        rw [(persistZone_spec hl hs.fs _ _).2, get_insert, if_neg this]
  | remove z' =>
    have : z' ≠ z := hn
    simp only [step, removeZone]
    rw [loadFile_saveAll hl hs.fs, get_erase, if_neg this]
  | persistAll =>
    simp only [step, persistAll]
    rw [loadFile_saveAll hl hs.fs]
    have hno : ∀ e ∈ s.cache, e.1 ≠ z := fun e he hez => hn ⟨e.2, hez ▸ he⟩
    generalize loadFile cd s.fs = m
    generalize hcache : s.cache = cache at hno
    clear hcache
    induction cache generalizing m with
    | nil => rfl
    | cons e r ih =>
      simp only [List.foldl_cons]
      rw [ih _ (fun e' he' => hno e' (by simp [he']))]
      split
      · rfl
      · rw [get_insert, if_neg (hno e (by simp))]
  | restart =>
    simp only [step, restart]
    rw [(openStore_fs hl hs.fs).2]

example : ¬ Writes (run toy 0 (openStore toy exFs) [.jarFor 0, .jarFor 1]) (.mutate 0 (· + 1)) 1 ∧
    reopened toy 0 (run toy 0 (openStore toy exFs) ([.jarFor 0, .jarFor 1] ++ [.mutate 0 (· + 1)])) 1
      = some 7 := by
  refine ⟨?_, by decide⟩
  rintro ⟨j, hj⟩
  have : (run toy 0 (openStore toy exFs) [.jarFor 0, .jarFor 1]).handles[0]? = some (0, 5) := by decide
  rw [this] at hj
  simp at hj

/-- both threads read the file, then both write it: one whole save after the other -/
def exLost : List (Label Nat) :=
  [.start 0 (.mutate 0 (· + 1)), .start 1 (.mutate 1 (· + 1)), .run 0 0, .run 1 0, .run 0 0, .run 1 0,
   .run 0 99, .run 0 99, .run 0 0, .run 0 0, .run 1 99, .run 1 99, .run 1 0, .run 1 0]

/-- Two zones changed at the same time: both calls return, and one of the two changes is not in the
file. -/
theorem C18_concurrent_violated :
    let m := mrun toy 0 exMachine exLost
    (∀ pc ∈ m.threads, match pc with | .idle => True | _ => False) ∧
    m.handles = [(0, 6), (1, 8)] ∧ loadFile toy m.fs = [(0, 5), (1, 8)] := by
  refine ⟨?_, by decide, by decide⟩
  have : (mrun toy 0 exMachine exLost).threads = [.idle, .idle] := by rfl
  rw [this]
  simp

/-- A store file that cannot be parsed counts as empty, and the next change of any zone replaces it: the
stored cookies of all other zones are gone. -/
theorem C18_unparsable_violated (cd : Codec J) (hl : cd.Lawful) (dflt : J) {fs : Fs} (hw : fs.Wf) (b : Bytes)
    (hr : fs.read = some b) (hb : cd.decode b = none) (z : Nat) (j : J) :
    loadFile cd (persistZone cd fs z j) = [(z, j)] := by
  rw [(persistZone_spec hl hw z j).2]
  simp [loadFile, hr, hb, insert]

/-- SQLite store: saving or removing a zone leaves the rows of every other zone as they were, in any
database state and for any jar. -/
theorem C18_sqlite {env : Verif.Cookies.Env} {jar : Verif.Cookies.Jar} (h : SqlJar env jar)
    (db : List Row) (z z' : Nat) (hz : z ≠ z') :
    (saveZone db z jar).filter (fun r => decide (r.zone = z')) = db.filter (fun r => decide (r.zone = z')) ∧
    (removeZoneFromDb db z).filter (fun r => decide (r.zone = z')) =
      db.filter (fun r => decide (r.zone = z')) := by
  have hf : (db.filter (fun r => decide (r.zone ≠ z))).filter (fun r => decide (r.zone = z')) =
      db.filter (fun r => decide (r.zone = z')) := by
    rw [List.filter_filter]
    apply List.filter_congr
    intro r _
    by_cases hr : r.zone = z'
    · have : ¬ z' = z := fun e => hz e.symm
      simp [hr, this]
    · simp [hr]
  constructor
  · rw [saveZone_eq db z (sqlJar_inv h), List.filter_append, hf]
    have : (rowsOf z jar).filter (fun r => decide (r.zone = z')) = [] := by
      rw [List.filter_eq_nil_iff]
      intro r hr
      have := ((mem_rowsOf z jar r).mp hr).1
      simp [this, hz]
    rw [this, List.append_nil]
  · exact hf

/-- and a removed zone has no rows left -/
theorem C18_sqlite_removed (db : List Row) (z : Nat) :
    (removeZoneFromDb db z).filter (fun r => decide (r.zone = z)) = [] := by
  unfold removeZoneFromDb
  rw [List.filter_filter, List.filter_eq_nil_iff]
  intro r _
  by_cases hr : r.zone = z <;> simp [hr]

/-- a jar filled from a response, saved next to the row of another zone -/
example : SqlJar Verif.Cookies.exEnv Verif.Cookies.exJar ∧
    (rowsOf 3 Verif.Cookies.exJar).length ≥ 1 ∧
    (saveZone ((rowsOf 9 Verif.Cookies.exJar)) 3 Verif.Cookies.exJar).length ≥ 2 :=
  ⟨.call (.store _ _ _) .fresh, by decide, by decide⟩

end Verif.CookieStore
