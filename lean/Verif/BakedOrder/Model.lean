/-!
# Model of the order of baked tiles

File modelled: `order_baked_tiles_by_layer` in /repo/crates/gosub_engine/src/engine/context.rs.

Simplification: the map of baked tiles is a function from keys; the bits of a position are a number.
-/
namespace Verif.BakedOrder

/-- the key of a tile: the place on the page and the layer (`context.rs:1515`) -/
structure Key where
  x : Nat
  y : Nat
  layer : Nat
  deriving DecidableEq

/-- the body of the loops, `context.rs:1510-1519`: a baked tile is taken out of the map. `T` is the type of baked tiles. -/
def take {T : Type} (m : Key → Option T) : List Key → List (Key × T)
  | [] => []
  | k :: r => match m k with
    | some t => (k, t) :: take (fun k' => if k' = k then none else m k') r
    | none => take m r

/-- `order_baked_tiles_by_layer`, `context.rs:1503-1522`; each tile is given with its key. `tilesOf` is the answer of
`get_intersecting_tiles` for the whole page, `arena` the table of tiles. -/
def order {T : Type} (layers : List Nat) (tilesOf : Nat → List Nat) (arena : Nat → Option Key) (m : Key → Option T) :
    List (Key × T) :=
  take m (layers.flatMap fun l => (tilesOf l).filterMap arena)

end Verif.BakedOrder
