import Verif.Util
import Verif.Map

/-!
# Model of the document tree

Files modelled (in /repo/crates/gosub_html5/src): `document/document_impl.rs`, `document/task_queue.rs`,
`node/arena.rs`, `node/node_impl.rs`, `node/data/element.rs`.

Not modelled: source locations, style sheets, quirks mode, the document type, `update_node`,
`update_node_ref`, `register_node_at` (unused outside the crate's tests).  `NodeId::next` saturates at
`usize::MAX`, here ids are unbounded.  A recursion or loop that does not come to an end is the result
`none`.
-/
namespace Verif.Dom
open Verif Verif.Map

/-- `node/data/element.rs:121-130` without `node_id` and `force_async` -/
structure Elem where
  name : Str
  ns : Str
  attrs : List (Str × Str)
  classes : List (Str × Bool)
  template : Option Nat
  deriving DecidableEq, Repr

/-- `node/node_impl.rs:15-30` -/
inductive Data
  | document
  | doctype (name pub sys : Str)
  | text (v : Str)
  | comment (v : Str)
  | element (e : Elem)
  deriving DecidableEq, Repr

/-- `node/node_impl.rs:33-48`, without id, registration flag and location -/
structure Node where
  parent : Option Nat
  children : List Nat
  data : Data
  deriving DecidableEq, Repr

/-- `document/document_impl.rs:24-38` with the arena (`node/arena.rs:8-13`) -/
structure Doc where
  nodes : List (Option Node)
  nextId : Nat
  count : Nat
  named : List (Str × Nat)
  byNode : List (Nat × List Str)
  hovered : List Nat
  focused : Option Nat
  deriving DecidableEq, Repr

/-- `node/arena.rs:47-49` -/
def nodeAt (d : Doc) (i : Nat) : Option Node := (d.nodes[i]?).join

/-- changing a node in place: `node/arena.rs:52-54` and an assignment; nothing happens if it is missing -/
def modify (d : Doc) (i : Nat) (f : Node → Node) : Doc :=
  { d with nodes := d.nodes.modify i (Option.map f) }

/-- `node/arena.rs:70-78` -/
def putNode (d : Doc) (i : Nat) (n : Node) : Doc :=
  let ns := if i < d.nodes.length then d.nodes else d.nodes ++ List.replicate (i + 1 - d.nodes.length) none
  { d with nodes := ns.set i (some n), count := if (ns[i]?).join.isNone then d.count + 1 else d.count }

/-- `node/arena.rs:61-67` -/
def dropNode (d : Doc) (i : Nat) : Doc :=
  if (nodeAt d i).isSome then { d with nodes := d.nodes.set i none, count := d.count - 1 } else d

/-- `document_impl.rs:132-134` -/
def parent (d : Doc) (i : Nat) : Option Nat := (nodeAt d i).bind (·.parent)

/-- `document_impl.rs:136-138` -/
def children (d : Doc) (i : Nat) : List Nat := ((nodeAt d i).map (·.children)).getD []

/-- the element data of a node, `node/node_impl.rs:175-180` -/
def elemOf (n : Node) : Option Elem :=
  match n.data with
  | .element e => some e
  | _ => none

/-- `document_impl.rs:183-188` -/
def attr (d : Doc) (i : Nat) (k : Str) : Option Str :=
  ((nodeAt d i).bind elemOf).bind fun e => look e.attrs k

/-- `char::is_ascii_whitespace` -/
def isAsciiWs (c : Char) : Bool := decide (c ∈ [' ', '\t', '\n', '\x0c', '\r'])

/-- `task_queue.rs:138-140` -/
def validId (v : Str) : Bool := !(v.isEmpty || v.any isAsciiWs)

/-- `id` -/
def idKey : Str := "id".toList
/-- `class` -/
def classKey : Str := "class".toList

/-- registering an id unless it is taken: `document_impl.rs:210-213`, `421-426`, `443-451` -/
def claimId (d : Doc) (v : Str) (i : Nat) : Doc :=
  if validId v && (look d.named v).isNone then
    { d with named := put d.named v i, byNode := put d.byNode i ((look d.byNode i).getD [] ++ [v]) }
  else d

/-- unregistering all ids of a node: `document_impl.rs:429-433`, `452-457` -/
def releaseIds (d : Doc) (i : Nat) : Doc :=
  match look d.byNode i with
  | some ids => { d with byNode := del d.byNode i, named := ids.foldl (fun m v => del m v) d.named }
  | none => d

/-- `document_impl.rs:438-459` for a node with the given id and data -/
def hookNode (d : Doc) (i : Nat) (n : Node) : Doc :=
  match elemOf n with
  | none => d
  | some e => match look e.attrs idKey with
    | some v => claimId d v i
    | none => releaseIds d i

/-- `document_impl.rs:414-436` -/
def hook (d : Doc) (i : Nat) : Doc :=
  match nodeAt d i with
  | some n => hookNode d i n
  | none => d

/-- `document_impl.rs:483-492` and `arena.rs:36-40`, `84-89` -/
def register (d : Doc) (data : Data) : Doc × Nat :=
  let i := d.nextId
  let n : Node := ⟨none, [], data⟩
  let d1 := hookNode { d with nextId := i + 1 } i n
  (putNode d1 i n, i)

/-- `document_impl.rs:54-69` -/
def Doc.new : Doc :=
  putNode ⟨[], 1, 0, [], [], [], none⟩ 0 ⟨none, [], .document⟩

/-! ## Classes -/

/-- `str::split_whitespace`, with the word read so far -/
def wordsFrom : Str → Str → List Str
  | [], cur => if cur = [] then [] else [cur]
  | c :: r, cur =>
    if isWs c then (if cur = [] then wordsFrom r [] else cur :: wordsFrom r []) else wordsFrom r (cur ++ [c])

/-- `str::split_whitespace` -/
def words (s : Str) : List Str := wordsFrom s []

/-- `element.rs:60-64` -/
def classAdd (m : List (Str × Bool)) (w : Str) : List (Str × Bool) :=
  if (look m w).isSome then m else put m w true

/-- `element.rs:109-117` -/
def classFrom (v : Str) : List (Str × Bool) := (words v).foldl (fun m w => put m w true) []

/-- `element.rs:202-210` -/
def Elem.addAttr (e : Elem) (k v : Str) : Elem :=
  let e' := { e with attrs := put e.attrs k v }
  if k = classKey then { e' with classes := (words v).foldl classAdd [] } else e'

/-- `element.rs:214-216`: the class named by the whole attribute value is removed -/
def dropValue (m : List (Str × Bool)) : Option Str → List (Str × Bool)
  | some v => del m v
  | none => m

/-- `element.rs:212-219` -/
def Elem.removeAttr (e : Elem) (k : Str) : Elem :=
  { e with classes := if k = classKey then dropValue e.classes (look e.attrs k) else e.classes,
           attrs := del e.attrs k }

/-- `document_impl.rs:235-243`, `element.rs:82-84` -/
def hasClass (d : Doc) (i : Nat) (c : Str) : Bool :=
  match (nodeAt d i).bind elemOf with
  | some e => (look e.classes c).getD false
  | none => false

/-- changing the element data of a node in place; nothing for other nodes -/
def onElem (f : Elem → Elem) (n : Node) : Node :=
  match n.data with
  | .element e => { n with data := .element (f e) }
  | _ => n

/-! ## The tree -/

/-- the loop of `has_node_id_recursive` over children, given the answer for one child -/
def anyChild (t : Nat) (rec : Nat → Option Bool) : List Nat → Option Bool
  | [] => some false
  | c :: r => if c = t then some true else match rec c with
    | none => none
    | some true => some true
    | some false => anyChild t rec r

/-- `document_impl.rs:601-614`; the first number bounds the depth of the recursion -/
def hasRec (d : Doc) (t : Nat) : Nat → Nat → Option Bool
  | 0, _ => none
  | f + 1, p => anyChild t (hasRec d t f) (children d p)

/-- `node/node_impl.rs:221-227` with the choice of `document_impl.rs:507-514` -/
def insertChild (c : Nat) (pos : Option Nat) (n : Node) : Node :=
  match pos with
  | some i => if i ≤ n.children.length then { n with children := n.children.insertIdx i c }
      else { n with children := n.children ++ [c] }
  | none => { n with children := n.children ++ [c] }

/-- `node/node_impl.rs:217-219` -/
def removeChild (c : Nat) (n : Node) : Node := { n with children := n.children.filter fun x => decide (x ≠ c) }

/-- `node/node_impl.rs:137-139` -/
def setParent (p : Option Nat) (n : Node) : Node := { n with parent := p }

/-- `document_impl.rs:502-523` -/
def attach (d : Doc) (n p : Nat) (pos : Option Nat) : Option Doc :=
  if p = n then some d
  else match hasRec d p (d.nodes.length + 1) n with
    | none => none
    | some true => some d
    | some false =>
      let d1 := if (nodeAt d p).isSome then hook (modify d p (insertChild n pos)) p else d
      if (nodeAt d1 n).isSome then some (hook (modify d1 n (setParent (some p))) n) else some d1

/-- `document_impl.rs:525-540` -/
def detach (d : Doc) (n : Nat) : Doc :=
  match parent d n with
  | none => d
  | some p =>
    let d1 := if (nodeAt d p).isSome then hook (modify d p (removeChild n)) p else d
    hook (modify d1 n (setParent none)) n

/-- `document_impl.rs:576-582`: taking a node off its parent's list -/
def unlist (d : Doc) (n : Nat) : Doc :=
  match parent d n with
  | some p => if (nodeAt d p).isSome then hook (modify d p (removeChild n)) p else d
  | none => d

/-- `document_impl.rs:574-585` -/
def deleteNode (d : Doc) (n : Nat) : Doc :=
  if (nodeAt d n).isSome then dropNode (unlist d n) n else d

/-- `document_impl.rs:156-159` -/
def relocate (d : Doc) (n p : Nat) : Option Doc := attach (detach d n) n p none

/-- `document_impl.rs:542-554` (every node of the arena is registered) -/
def relocateUnlessThere (d : Doc) (n p : Nat) : Option Doc :=
  if (nodeAt d n).isNone then some d
  else if parent d n = some p then some d
  else relocate d n p

/-- `document_impl.rs:587-599` -/
def nextSibling (d : Doc) (n : Nat) : Option Nat :=
  match parent d n with
  | none => none
  | some p =>
    match (children d p).dropWhile fun x => decide (x ≠ n) with
    | _ :: s :: _ => some s
    | _ => none

/-! ## Attributes, text, hover -/

/-- `document_impl.rs:197-215` -/
def setAttribute (d : Doc) (i : Nat) (k v : Str) : Doc :=
  let d1 := modify d i (onElem fun e => e.addAttr k v)
  if ((nodeAt d i).bind elemOf).isSome && decide (k = idKey) then claimId d1 v i else d1

/-- `document_impl.rs:217-224` -/
def removeAttribute (d : Doc) (i : Nat) (k : Str) : Doc := modify d i (onElem fun e => e.removeAttr k)

/-- `document_impl.rs:226-233` -/
def addClass (d : Doc) (i : Nat) (c : Str) : Doc :=
  modify d i (onElem fun e => { e with classes := classAdd e.classes c })

/-- `document_impl.rs:252-259` -/
def setTemplate (d : Doc) (i f : Nat) : Doc := modify d i (onElem fun e => { e with template := some f })

/-- changing the text of a text node: `document_impl.rs:270-277`, `279-291` -/
def onText (f : Str → Str) (n : Node) : Node :=
  match n.data with
  | .text v => { n with data := .text (f v) }
  | _ => n

/-- `document_impl.rs:343-345` -/
def lookup (d : Doc) (v : Str) : Option Nat := look d.named v

/-- the loop of `document_impl.rs:397-405`; the first number bounds the number of rounds -/
def climb (d : Doc) : Nat → Nat → Option (List Nat)
  | 0, _ => none
  | f + 1, i => match parent d i with
    | some p => (climb d f p).map (i :: ·)
    | none => some [i]

/-- `document_impl.rs:394-406` -/
def setHovered (d : Doc) (leaf : Option Nat) : Option Doc :=
  match leaf with
  | none => some { d with hovered := [] }
  | some i => (climb d (d.nodes.length + 2) i).map fun l => { d with hovered := l }

/-- `document_impl.rs:375-377` -/
def isHovered (d : Doc) (i : Nat) : Bool := decide (i ∈ d.hovered)

/-! ## Traversal -/

/-- `document_impl.rs:749-760`: one call of the iterator; the top of the stack is the head -/
def iterNext (d : Doc) : List Nat → Option (Nat × List Nat)
  | [] => none
  | x :: st => some (x, children d x ++ st)

/-- collecting at most `f` items -/
def iterate (d : Doc) : Nat → List Nat → List Nat
  | 0, _ => []
  | f + 1, st => match iterNext d st with
    | none => []
    | some (x, st') => x :: iterate d f st'

/-! ## Histories -/

/-- the calls that change a document -/
inductive Op
  | createElement (name : Str) (ns : Str) (attrs : List (Str × Str))
  | createText (v : Str)
  | createComment (v : Str)
  | createDoctype (name pub sys : Str)
  | clone (i : Nat)
  | attach (n p : Nat) (pos : Option Nat)
  | detach (n : Nat)
  | remove (n : Nat)
  | relocate (n p : Nat)
  | relocateUnlessThere (n p : Nat)
  | setAttribute (i : Nat) (k v : Str)
  | removeAttribute (i : Nat) (k : Str)
  | addClass (i : Nat) (c : Str)
  | setTemplate (i f : Nat)
  | setText (i : Nat) (v : Str)
  | appendText (i : Nat) (v : Str)
  | hover (leaf : Option Nat)
  | focus (node : Option Nat)
  deriving DecidableEq, Repr

/-- `document_impl.rs:73-89`: the data of a new element -/
def elementData (name ns : Str) (attrs : List (Str × Str)) : Data :=
  .element ⟨name, ns, attrs, ((look attrs classKey).map classFrom).getD [], none⟩

/-- One call: the new document and, for a creation, the id returned.  `none`: the call does not come to
an end. -/
def step (d : Doc) : Op → Option (Doc × Option Nat)
  | .createElement name ns attrs => let r := register d (elementData name ns attrs); some (r.1, some r.2)
  | .createText v => let r := register d (.text v); some (r.1, some r.2)
  | .createComment v => let r := register d (.comment v); some (r.1, some r.2)
  | .createDoctype a b c => let r := register d (.doctype a b c); some (r.1, some r.2)
  | .clone i => match nodeAt d i with
    | some n => let r := register d n.data; some (r.1, some r.2)
    | none => some (d, some i)
  | .attach n p pos => (Dom.attach d n p pos).map fun d' => (d', none)
  | .detach n => some (Dom.detach d n, none)
  | .remove n => some (deleteNode d n, none)
  | .relocate n p => (Dom.relocate d n p).map fun d' => (d', none)
  | .relocateUnlessThere n p => (Dom.relocateUnlessThere d n p).map fun d' => (d', none)
  | .setAttribute i k v => some (Dom.setAttribute d i k v, none)
  | .removeAttribute i k => some (Dom.removeAttribute d i k, none)
  | .addClass i c => some (Dom.addClass d i c, none)
  | .setTemplate i f => some (Dom.setTemplate d i f, none)
  | .setText i v => some (modify d i (onText fun _ => v), none)
  | .appendText i v => some (modify d i (onText fun t => t ++ v), none)
  | .hover leaf => (setHovered d leaf).map fun d' => (d', none)
  | .focus n => some ({ d with focused := n }, none)

/-- A history of calls on a new document, with what each returned. -/
def run (d : Doc) : List Op → Option (Doc × List (Option Nat))
  | [] => some (d, [])
  | o :: r => match step d o with
    | none => none
    | some (d', out) => (run d' r).map fun x => (x.1, out :: x.2)

/-! ## The task queue -/

/-- `task_queue.rs:17-41` without locations -/
inductive Task
  | createElement (name ns : Str) (parent : Nat) (pos : Option Nat)
  | createText (v : Str) (parent : Nat)
  | createComment (v : Str) (parent : Nat)
  | insertAttribute (k v : Str) (element : Nat)
  deriving DecidableEq, Repr

/-- `task_queue.rs:54-68` -/
structure Queue where
  next : Nat
  tasks : List Task
  deriving DecidableEq, Repr

/-- `task_queue.rs:205-211` -/
def Queue.new (d : Doc) : Queue := ⟨d.nextId, []⟩

/-- `task_queue.rs:144-201`: queueing, and the id handed out for a creation -/
def enqueue (q : Queue) (t : Task) : Queue × Option Nat :=
  match t with
  | .insertAttribute _ _ _ => ({ q with tasks := q.tasks ++ [t] }, none)
  | _ => (⟨q.next + 1, q.tasks ++ [t]⟩, some q.next)

/-- `document_impl.rs:163-165` `= ElementNode` -/
def isElement (d : Doc) (i : Nat) : Bool := ((nodeAt d i).bind elemOf).isSome

/-- `task_queue.rs:115-120` (for every attribute name) -/
def takenByOther (d : Doc) (v : Str) (i : Nat) : Bool :=
  match lookup d v with
  | some j => decide (j ≠ i)
  | none => false

/-- one task of `task_queue.rs:79-130` -/
def runTask (d : Doc) : Task → Option Doc
  | .createElement name ns p pos => let r := register d (elementData name ns []); attach r.1 r.2 p pos
  | .createText v p => let r := register d (.text v); attach r.1 r.2 p none
  | .createComment v p => let r := register d (.comment v); attach r.1 r.2 p none
  | .insertAttribute k v i =>
    if k = idKey ∧ validId v = false then some d
    else if takenByOther d v i then some d
    else if isElement d i then some (setAttribute d i k v) else some d

/-- the loop of `task_queue.rs:79-130` -/
def runTasks (d : Doc) : List Task → Option Doc
  | [] => some d
  | t :: r => match runTask d t with
    | none => none
    | some d' => runTasks d' r

/-- `task_queue.rs:76-134` -/
def flush (d : Doc) (q : Queue) : Option (Doc × Queue) :=
  (runTasks d q.tasks).map fun d' => (d', { q with tasks := [] })

end Verif.Dom
