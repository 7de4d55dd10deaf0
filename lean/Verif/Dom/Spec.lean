import Verif.Dom.Model
import Mathlib.Logic.Relation

/-!
# Specification vocabulary for C35–C42
-/
namespace Verif.Dom
open Verif Verif.Map

/-- the node exists (created and not removed) -/
def live (d : Doc) (i : Nat) : Prop := (nodeAt d i).isSome = true

/-- `p` lists `c` among its children -/
def Edge (d : Doc) (p c : Nat) : Prop := c ∈ children d p

/-- `p` names `q` as its parent -/
def Up (d : Doc) (p q : Nat) : Prop := parent d p = some q

/-- the node ids given to a call -/
def Op.ids : Op → List Nat
  | .clone i => [i]
  | .attach n p _ => [n, p]
  | .detach n => [n]
  | .remove n => [n]
  | .relocate n p => [n, p]
  | .relocateUnlessThere n p => [n, p]
  | .setAttribute i _ _ => [i]
  | .removeAttribute i _ => [i]
  | .addClass i _ => [i]
  | .setTemplate i f => [i, f]
  | .setText i _ => [i]
  | .appendText i _ => [i]
  | .hover leaf => leaf.toList
  | .focus n => n.toList
  | _ => []

/-- The documents reachable by calls that each satisfy `P` in the state in which they are made. -/
inductive Reach (P : Doc → Op → Prop) : Doc → Prop
  | new : Reach P Doc.new
  | step {d d' : Doc} {o : Op} {out : Option Nat} :
      Reach P d → P d o → step d o = some (d', out) → Reach P d'

/-- any call at all, also with ids that were never handed out -/
def Any (_ : Doc) (_ : Op) : Prop := True

/-- only ids that were handed out before (also of nodes removed since) -/
def Issued (d : Doc) (o : Op) : Prop := ∀ i ∈ o.ids, i < d.nextId

/-- Attaching only nodes that are not attached, and moving only existing nodes to existing parents. -/
def Tidy (d : Doc) : Op → Prop
  | .attach n p _ => live d n ∧ live d p ∧ ∀ q, live d q → n ∉ children d q
  | .relocate n p => live d n ∧ live d p
  | .relocateUnlessThere n p => live d n ∧ live d p
  | _ => True

/-- Every existing node lists each of its children exactly once, and lists exactly the nodes that name it
as their parent. -/
def LinksAgree (d : Doc) : Prop :=
  ∀ p c, live d p → (children d p).count c = if parent d c = some p then 1 else 0

mutual
/-- `l` is the subtree of `x` in document order: the node, then the subtrees of its children in order -/
inductive Walk (d : Doc) : Nat → List Nat → Prop
  | node {x : Nat} {l : List Nat} : Walks d (children d x) l → Walk d x (x :: l)
/-- the subtrees of several nodes, one after the other -/
inductive Walks (d : Doc) : List Nat → List Nat → Prop
  | nil : Walks d [] []
  | cons {c : Nat} {cs l₁ l₂ : List Nat} : Walk d c l₁ → Walks d cs l₂ → Walks d (c :: cs) (l₁ ++ l₂)
end

/-- one call leads from the first document to the second -/
def Next (d d' : Doc) : Prop := ∃ o out, step d o = some (d', out)

/-- the data of a node -/
def dataAt (d : Doc) (i : Nat) : Option Data := (nodeAt d i).map (·.data)

/-- The call keeps every (valid) id that an element has: it neither removes or replaces the attribute nor
deletes the element. -/
def KeepsIds (d : Doc) (o : Op) : Prop :=
  ∀ d' out, step d o = some (d', out) → ∀ n v, validId v = true → attr d n "id".toList = some v →
    attr d' n "id".toList = some v

/-- `w` is one of the words of `v`: a non-empty run without white space, with white space or an end of the
text on both sides -/
def IsWord (w v : Str) : Prop :=
  w ≠ [] ∧ (∀ c ∈ w, isWs c = false) ∧
  ∃ a b, v = a ++ w ++ b ∧ (∀ c, a.getLast? = some c → isWs c = true) ∧ (∀ c, b.head? = some c → isWs c = true)

/-- No class is added on its own, and a class attribute is removed only if it has no word but its value. -/
def ClassTidy (d : Doc) : Op → Prop
  | .addClass _ _ => False
  | .removeAttribute i k => k = "class".toList → ∀ v w, attr d i "class".toList = some v → IsWord w v → w = v
  | _ => True

/-! ## A session with the task queue -/

/-- what a session does: queue an edit, or flush the queue -/
inductive QEv
  | edit (t : Task)
  | flush

/-- document, queue and the ids handed out so far, each with the edit it was handed out for -/
structure Session where
  doc : Doc
  queue : Queue
  log : List (Task × Nat)

/-- the entry of the log for an edit that got an id -/
def logEntry (t : Task) : Option Nat → List (Task × Nat)
  | some i => [(t, i)]
  | none => []

/-- one event of a session; `none`: it does not come to an end -/
def Session.next (s : Session) : QEv → Option Session
  | .edit t => some ⟨s.doc, (enqueue s.queue t).1, s.log ++ logEntry t (enqueue s.queue t).2⟩
  | .flush => (Dom.flush s.doc s.queue).map fun r => ⟨r.1, r.2, s.log⟩

/-- a whole session -/
def Session.run (s : Session) : List QEv → Option Session
  | [] => some s
  | e :: r => (s.next e).bind fun s' => s'.run r

/-- node `i` hangs under `p`: it names it as parent, and an earlier node lists it -/
def Under (d : Doc) (i p : Nat) : Prop :=
  (p ≠ i → parent d i = some p) ∧ (p < i → live d p → i ∈ children d p)

/-- node `i` is what the edit asked for -/
def MadeAt (d : Doc) (i : Nat) : Task → Prop
  | .createElement name ns p _ =>
    (∃ e, dataAt d i = some (.element e) ∧ e.name = name ∧ e.ns = ns) ∧ Under d i p
  | .createText v p => dataAt d i = some (.text v) ∧ Under d i p
  | .createComment v p => dataAt d i = some (.comment v) ∧ Under d i p
  | .insertAttribute _ _ _ => False

end Verif.Dom
