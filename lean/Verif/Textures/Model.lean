/-!
# Model of the store of textures

File modelled: /repo/crates/gosub_render_pipeline/src/common/texture_store.rs.

Simplification: the map is a function from identifiers; identifiers do not overflow.
-/
namespace Verif.Textures

/-- `TilePixels`: bytes in memory, or a texture of the graphics card -/
inductive Pixels
  | cpu (data : List UInt8)
  | gpu (id : Nat)
  deriving DecidableEq

/-- `Texture`; the format is a number -/
structure Texture where
  id : Nat
  width : Nat
  height : Nat
  pixels : Pixels
  format : Nat
  deriving DecidableEq

/-- `TextureStore`, `texture_store.rs:8-11` -/
structure Store where
  textures : Nat → Option Texture
  nextId : Nat

/-- `new`, `texture_store.rs:20-25` -/
def Store.new : Store := ⟨fun _ => none, 0⟩

/-- `next_id`, `texture_store.rs:75-80` -/
def Store.takeId (s : Store) : Nat × Store := (s.nextId, { s with nextId := s.nextId + 1 })

/-- the map with one more entry -/
def Store.insert (s : Store) (k : Nat) (t : Texture) : Store :=
  { s with textures := fun i => if i = k then some t else s.textures i }

/-- `add`, `texture_store.rs:27-46` -/
def Store.add (s : Store) (width height : Nat) (data : List UInt8) (format : Nat) : Nat × Store :=
  let (id, s) := s.takeId
  let t : Texture := ⟨id, width, height, .cpu data, format⟩
  (t.id, s.insert t.id t)

/-- `add_gpu`, `texture_store.rs:50-69` -/
def Store.addGpu (s : Store) (width height gpuId format : Nat) : Nat × Store :=
  let (id, s) := s.takeId
  let t : Texture := ⟨id, width, height, .gpu gpuId, format⟩
  (t.id, s.insert t.id t)

/-- `get`, `texture_store.rs:71-73` -/
def Store.get (s : Store) (id : Nat) : Option Texture := s.textures id

end Verif.Textures
