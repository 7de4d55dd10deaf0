/-! # Generated content and the render tree

Model of the synthetic nodes of `::before` and `::after` in
`crates/gosub_render_pipeline/src/common/document/pipeline_doc.rs` and of
`crates/gosub_render_pipeline/src/rendertree_builder/tree.rs`. A node id is a natural number; the
operations on `u64` are those of natural numbers, cut to 64 bits where a bit can be lost. -/

namespace Verif.RenderTree

/-- `PSEUDO_FLAG` (pipeline_doc.rs:778). -/
def pseudoFlag : Nat := 1 <<< 62

/-- The roles (pipeline_doc.rs:779-782). -/
def beforeElem : Nat := 0
def afterElem : Nat := 1
def beforeText : Nat := 2
def afterText : Nat := 3

/-- `is_pseudo_id` (pipeline_doc.rs:784-786). -/
def isPseudo (id : Nat) : Bool := id &&& pseudoFlag != 0

/-- `encode_pseudo` (pipeline_doc.rs:788-790). The shift of a `u64` loses the bits above 64. -/
def encode (owner role : Nat) : Nat := pseudoFlag ||| ((owner <<< 2) % 2 ^ 64) ||| role

/-- `decode_pseudo` (pipeline_doc.rs:792-795). `!PSEUDO_FLAG` has all of the 64 bits but one. -/
def decode (id : Nat) : Nat × Nat :=
  let v := id &&& (2 ^ 64 - 1 - pseudoFlag)
  (v >>> 2, v &&& 3)

/-- `role_is_after` (pipeline_doc.rs:797-799). -/
def roleIsAfter (role : Nat) : Bool := role == afterElem || role == afterText

/-- `role_is_text` (pipeline_doc.rs:801-803). -/
def roleIsText (role : Nat) : Bool := role == beforeText || role == afterText

/-- The types of the nodes of a document (`GosubNodeType`). -/
inductive RealKind where
  | document | doctype | text | comment | element
deriving DecidableEq, Repr

/-- `PipelineNodeKind` (pipeline_doc.rs). -/
inductive Kind where
  | element | text | comment
deriving DecidableEq, Repr

/-- A pseudo-element as `compute_pseudo_box` makes it (pipeline_doc.rs:807-810, 933-960): its text, and
whether its own `display` is `none`. -/
structure PseudoBox where
  text : Option String
  displayNone : Bool
deriving DecidableEq, Repr

/-- The document below the adapter, as far as the tree goes. `pseudo n b` is the `::after` (`b`) or
`::before` box of node `n`; the cache of the boxes does not change it. `displayNone` is whether the own
`display` of a node is `none`. -/
structure Real where
  kind : Nat → RealKind
  children : Nat → List Nat
  parent : Nat → Option Nat
  tag : Nat → Option String
  text : Nat → String
  displayNone : Nat → Bool
  pseudo : Nat → Bool → Option PseudoBox

/-- `children` (pipeline_doc.rs:1132-1162). -/
def Real.kids (d : Real) (id : Nat) : List Nat :=
  if isPseudo id then
    let (owner, role) := decode id
    if roleIsText role then []
    else match d.pseudo owner (roleIsAfter role) with
      | some pb =>
        if pb.text.isSome then [encode owner (if roleIsAfter role then afterText else beforeText)] else []
      | none => []
  else
    (if (d.pseudo id false).isSome then [encode id beforeElem] else []) ++ d.children id ++
    (if (d.pseudo id true).isSome then [encode id afterElem] else [])

/-- `node_kind` (pipeline_doc.rs:1164-1179). -/
def Real.nodeKind (d : Real) (id : Nat) : Kind :=
  if isPseudo id then
    if roleIsText (decode id).2 then .text else .element
  else match d.kind id with
    | .text => .text
    | .comment => .comment
    | .doctype => .comment
    | .element => .element
    | .document => .element

/-- `tag_name` (pipeline_doc.rs:1181-1187). -/
def Real.tagName (d : Real) (id : Nat) : Option String := if isPseudo id then none else d.tag id

/-- `is_display_none` (pipeline_doc.rs:1189-1194), which looks at the own style: for a synthetic node
at that of its box (`pseudo_own_style`, 1001-1009). -/
def Real.isDisplayNone (d : Real) (id : Nat) : Bool :=
  if isPseudo id then
    let (owner, role) := decode id
    if roleIsText role then false
    else match d.pseudo owner (roleIsAfter role) with
      | some pb => pb.displayNone
      | none => false
  else d.displayNone id

/-- `parent` (pipeline_doc.rs:1196-1214). -/
def Real.parentOf (d : Real) (id : Nat) : Option Nat :=
  if isPseudo id then
    let (owner, role) := decode id
    some (if roleIsText role then encode owner (if roleIsAfter role then afterElem else beforeElem)
      else owner)
  else d.parent id

/-- The text and the children in the `Node` that `get_node_by_id` makes (pipeline_doc.rs:1418-1451). -/
def Real.nodeText (d : Real) (id : Nat) : Option String :=
  if isPseudo id then
    let (owner, role) := decode id
    if roleIsText role then
      some (((d.pseudo owner (roleIsAfter role)).bind PseudoBox.text).getD "")
    else none
  else if d.kind id = .text then some (d.text id) else none

/-- The children in the `Node` that `get_node_by_id` makes (pipeline_doc.rs:1418-1444). -/
def Real.nodeChildren (d : Real) (id : Nat) : List Nat :=
  if isPseudo id then d.kids id else d.children id

/-! ## The render tree -/

/-- What the builder of the render tree asks a document (`PipelineDocument`). -/
structure Doc where
  kind : Nat → Kind
  tag : Nat → Option String
  displayNone : Nat → Bool
  children : Nat → List Nat

/-- The adapter as a `PipelineDocument`. -/
def Real.doc (d : Real) : Doc :=
  { kind := d.nodeKind, tag := d.tagName, displayNone := d.isDisplayNone, children := d.kids }

/-- `INVISIBLE_ELEMENTS` (tree.rs:99). -/
def invisibleElements : List String := ["head", "style", "script", "meta", "link", "title"]

/-- `is_visible` (tree.rs:178-191). -/
def Doc.isVisible (d : Doc) (id : Nat) : Bool :=
  match d.kind id with
  | .comment => false
  | .text => true
  | .element =>
    match d.tag id with
    | some tag => if invisibleElements.contains tag then false else !d.displayNone id
    | none => !d.displayNone id

/-- `Frame` (tree.rs:194-197). -/
inductive Frame where
  | process (id : Nat)
  | collect (id numChildren : Nat)

/-- The variables of `build_rendertree` (tree.rs:199-200): the stack with its top first, the results in
order, and the arena with the children of each entry. -/
structure St where
  stack : List Frame
  results : List (Option Nat)
  arena : Nat → Option (List Nat)

/-- `HashMap::insert`. -/
def put (arena : Nat → Option (List Nat)) (id : Nat) (kids : List Nat) : Nat → Option (List Nat) :=
  fun k => if k = id then some kids else arena k

/-- One turn of the loop (tree.rs:202-228), for the frame that was popped. -/
def step (d : Doc) (f : Frame) (s : St) : St :=
  match f with
  | .process id =>
    if !d.isVisible id then { s with results := s.results ++ [none] }
    else
      let children := d.children id
      { s with stack := children.reverse.foldl (fun st c => .process c :: st)
                 (.collect id children.length :: s.stack) }
  | .collect id n =>
    let start := s.results.length - n
    let kids := (s.results.drop start).filterMap (fun r => r)
    { s with results := s.results.take start ++ [some id], arena := put s.arena id kids }

/-- The loop of `build_rendertree` (tree.rs:202-228), for at most so many turns; `none` if they do not
suffice. -/
def loop (d : Doc) : Nat → St → Option St
  | 0, s => if s.stack.isEmpty then some s else none
  | k + 1, s =>
    match s.stack with
    | [] => some s
    | f :: fs => loop d k (step d f { s with stack := fs })

/-- `parse` (tree.rs:158-176) with `build_rendertree` (193-231), for a document whose root is `root`:
the arena and the root of the render tree. The inner `none` is the error "Failed to build
rendertree"; the outer one that the turns do not suffice. -/
def parse (d : Doc) (root turns : Nat) : Option ((Nat → Option (List Nat)) × Option Nat) :=
  (loop d turns ⟨[.process root], [], fun _ => none⟩).map
    (fun s => (s.arena, (s.results.getLast?).bind (fun r => r)))

end Verif.RenderTree
