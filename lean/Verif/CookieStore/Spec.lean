import Verif.CookieStore.Model
import Verif.Cookies.Spec
/-! # Cookie stores: vocabulary of the properties -/
namespace Verif.CookieStore
variable {J : Type}

/-- the parser reads back what the serialiser wrote -/
def Codec.Lawful (cd : Codec J) : Prop := ∀ m, cd.decode (cd.encode m) = some m

/-- names point to existing, distinct inodes -/
structure Fs.Wf (fs : Fs) : Prop where
  file : ∀ i, fs.file = some i → i < fs.inodes.length
  tmp : ∀ i, fs.tmp = some i → i < fs.inodes.length
  ne : ∀ i, fs.file = some i → fs.tmp ≠ some i

/-- The jar a fresh process gets for zone `z` from the files left behind by `s`. -/
def reopened (cd : Codec J) (dflt : J) (s : Store J) (z : Nat) : Option J :=
  let r := jarFor cd dflt (restart cd s) z
  (r.1.handles[r.2]?).map (·.2)

/-- `op`, called in state `s`, is a change to zone `z`: a mutation through one of its jars, or its
removal. -/
def Changes (s : Store J) (op : Op J) (z : Nat) : Prop :=
  match op with
  | .mutate h _ => ∃ j, s.handles[h]? = some (z, j)
  | .remove z' => z' = z
  | _ => False

/-- none of the calls is a change to zone `z` -/
def NoChange (cd : Codec J) (dflt : J) (s : Store J) (z : Nat) : List (Op J) → Prop
  | [] => True
  | op :: ops => ¬ Changes s op z ∧ NoChange cd dflt (step cd dflt s op) z ops

/-- `op`, called in state `s`, writes the stored copy of zone `z` on behalf of that zone: a change, its
release, or a flush of everything while the zone is in use. -/
def Writes (s : Store J) (op : Op J) (z : Nat) : Prop :=
  match op with
  | .mutate h _ => ∃ j, s.handles[h]? = some (z, j)
  | .remove z' => z' = z
  | .release z' => z' = z
  | .persistAll => ∃ h, (z, h) ∈ s.cache
  | .jarFor _ => False
  | .restart => False

/-- thread `t` completes a `jar_for(z)` call in this step, with handle `h` -/
def Returns (cd : Codec J) (dflt : J) (m : Machine J) (l : Label J) (z h : Nat) : Prop :=
  ∃ t n, l = .run t n ∧ (m.threads[t]? = some (.look1 z) ∨ ∃ j, m.threads[t]? = some (.look3 z j)) ∧
    (mstep cd dflt m l).threads[t]? = some (.got z h)

/-- this step evicts zone `z` (the zone is being released or removed) -/
def Evicts (m : Machine J) (l : Label J) (z : Nat) : Prop :=
  ∃ t n, l = .run t n ∧ (m.threads[t]? = some (.rel1 z) ∨ m.threads[t]? = some (.rem1 z))

def NoEvict (cd : Codec J) (dflt : J) (m : Machine J) (z : Nat) : List (Label J) → Prop
  | [] => True
  | l :: ls => ¬ Evicts m l z ∧ NoEvict cd dflt (mstep cd dflt m l) z ls

open Verif.Cookies (Jar Env) in
/-- Jars that exist over any number of browser sessions with the SQLite store. -/
inductive SqlJar (env : Env) : Jar → Prop
  | fresh : SqlJar env (Verif.Cookies.new .allow)
  | call {j} (op : Verif.Cookies.Op) : SqlJar env j → SqlJar env (Verif.Cookies.step env j op)
  | reload {j} (db : List Row) (z : Nat) (rows : List Row) (now : Int) :
      SqlJar env j → rows.Perm ((saveZone db z j).filter (fun r => decide (r.zone = z))) →
      SqlJar env (loadRows rows now)

end Verif.CookieStore
