/-!
# Model of the tiling of background layers

File modelled: /repo/crates/gosub_render_pipeline/src/common/document/pipeline_doc.rs (`bg_token_groups`,
`resolve_bg_size`, `resolve_bg_position`, `resolve_bg_repeat`, the second half of `background_layers`).

Simplification: lengths are integers.
-/
namespace Verif.BgLayers

/-- `BgTok`, `pipeline_doc.rs:493-502` -/
inductive Tok
  | len (v : Int)
  | pct (v : Int)
  | kw (s : String)
  deriving DecidableEq

/-- a value of a list: a comma, one that `value_bg_tok` reads, or another one (`pipeline_doc.rs:504-521`) -/
inductive Val
  | comma
  | tok (t : Tok)
  | other
  deriving DecidableEq

/-- adding to the last group, `pipeline_doc.rs:551-553` -/
def pushLast : List (List Tok) → Tok → List (List Tok)
  | [], _ => []
  | [g], t => [g ++ [t]]
  | g :: g' :: r, t => g :: pushLast (g' :: r) t

/-- one round of the loop of `bg_token_groups`, `pipeline_doc.rs:545-555` -/
def pushVal (gs : List (List Tok)) : Val → List (List Tok)
  | .comma => gs ++ [[]]
  | .tok t => pushLast gs t
  | .other => gs

/-- `bg_token_groups` for a list, `pipeline_doc.rs:542-557`; a single value is one group of one token there, as here -/
def groups (l : List Val) : List (List Tok) := l.foldl pushVal [[]]

/-- the loop of `resolve_bg_size`: lengths only, `pipeline_doc.rs:567-575` -/
def dims : List Tok → Option (List Int)
  | [] => some []
  | .len v :: r => (dims r).map (v :: ·)
  | _ :: _ => none

/-- `resolve_bg_size`, `pipeline_doc.rs:566-581` -/
def bgSize (g : List Tok) : Option (Int × Int) :=
  match dims g with
  | some [w] => some (w, w)
  | some (w :: h :: _) => some (w, h)
  | _ => none

/-- `resolve_bg_position`, `pipeline_doc.rs:585-598` -/
def bgPosition (g : List Tok) : Int × Int :=
  match g.filterMap (fun t => match t with | .len v => some v | _ => none) with
  | [x] => (x, 0)
  | x :: y :: _ => (x, y)
  | [] => (0, 0)

/-- `axis`, `pipeline_doc.rs:609` -/
def axis (k : String) : Bool := k != "no-repeat"

/-- `resolve_bg_repeat`, `pipeline_doc.rs:601-617` -/
def bgRepeat (g : List Tok) : Bool × Bool :=
  match g.filterMap (fun t => match t with | .kw k => some k | _ => none) with
  | [] => (true, true)
  | [a] => if a = "repeat-x" then (true, false) else if a = "repeat-y" then (false, true) else (axis a, axis a)
  | a :: b :: _ => (axis a, axis b)

/-- `Tiling`, `gradient.rs` -/
structure Tiling where
  size : Int × Int
  position : Int × Int
  repeats : Bool × Bool
  deriving DecidableEq

/-- `pick`, with the group picked, `pipeline_doc.rs:1281-1282` -/
def pick (gs : List (List Tok)) (i : Nat) : Option (List Tok) := if gs.isEmpty then none else gs[i % gs.length]?

/-- the tiling of the layer `i`, `pipeline_doc.rs:1284-1302`; `none` is a layer that fills the box -/
def tiling (sizes positions repeats : List (List Tok)) (i : Nat) : Option Tiling :=
  match (pick sizes i).bind bgSize with
  | none => none
  | some (w, h) =>
    if w ≤ 0 ∨ h ≤ 0 then none
    else some ⟨(w, h), ((pick positions i).map bgPosition).getD (0, 0), ((pick repeats i).map bgRepeat).getD (true, true)⟩

/-- `read_groups`, `pipeline_doc.rs:1273-1277`: no groups for a property that is not set -/
def readGroups (l : Option (List Val)) : List (List Tok) := (l.map groups).getD []

/-- the tilings of `n` layers, `pipeline_doc.rs:1272-1303` -/
def layers (n : Nat) (sizes positions repeats : Option (List Val)) : List (Option Tiling) :=
  (List.range n).map (tiling (readGroups sizes) (readGroups positions) (readGroups repeats))

end Verif.BgLayers
