import Verif.Storage.Model
/-! # Web storage: what a user of the API expects

A map from identities to maps. Session areas exist from their first lookup until their tab is dropped. -/
namespace Verif.Storage

structure Spec where
  handles : List Ident
  exist : Ident → Bool
  val : Ident → Str → Option Str

/-- the closing of tab `t` of zone `z` concerns this identity -/
def Ident.ofTab (z t : Nat) : Ident → Bool
  | .ses z' t' _ _ => decide (z' = z ∧ t' = t)
  | .loc _ _ _ => false

/-- run `f` on the contents of the area behind handle `h`, if it exists -/
def Spec.change (s : Spec) (h : Nat) (f : (Str → Option Str) → (Str → Option Str)) : Spec :=
  match s.handles[h]? with
  | none => s
  | some i => { s with val := fun j => if j = i ∧ s.exist i = true then f (s.val j) else s.val j }

def Spec.step (s : Spec) : Op → Spec
  | .localFor z p o => { s with handles := s.handles ++ [.loc z p o] }
  | .sessionFor z t p o =>
    { s with handles := s.handles ++ [.ses z t p o]
             exist := fun j => if j = .ses z t p o then true else s.exist j }
  | .dropTab z t =>
    { s with exist := fun j => if j.ofTab z t = true then false else s.exist j
             val := fun j => if j.ofTab z t = true then fun _ => none else s.val j }
  | .set h k v => s.change h (fun m k' => if k' = k then some v else m k')
  | .remove h k => s.change h (fun m k' => if k' = k then none else m k')
  | .clear h => s.change h (fun _ _ => none)

/-- nothing stored except what the database already holds for local areas -/
def Spec.init (stored : Ident → Str → Option Str) : Spec :=
  { handles := []
    exist := fun i => match i with | .loc .. => true | .ses .. => false
    val := fun i => match i with | .loc .. => stored i | .ses .. => fun _ => none }

def Spec.run (s : Spec) (ops : List Op) : Spec := ops.foldl Spec.step s

/-- the identity a call asks for -/
def Op.asks : Op → Option Ident
  | .localFor z p o => some (.loc z p o)
  | .sessionFor z t p o => some (.ses z t p o)
  | _ => none

def Ident.part : Ident → Part
  | .loc _ p _ => p
  | .ses _ _ p _ => p

def Ident.origin : Ident → Origin
  | .loc _ _ o => o
  | .ses _ _ _ o => o

/-- hosts as `url` produces them -/
def Host.Ok : Host → Prop
  | .name s => ':' ∉ s ∧ '[' ∉ s
  | .v6 a => ']' ∉ a

/-- an origin with a scheme, host and port, as `url` produces them -/
def Origin.Tuple : Origin → Prop
  | .tuple s h _ => ':' ∉ s ∧ h.Ok
  | .opaq _ => False

/-- partition keys whose text form is not that of another kind of key -/
def Part.Plain : Part → Prop
  | .none => True
  | .topLevel o => o.Tuple
  | .custom s => s ≠ [] ∧ ¬ "top:".toList <+: s

/-- identities without opaque origins or misleading custom partition names -/
def Ident.Plain (i : Ident) : Prop := i.part.Plain ∧ i.origin.Tuple

/-- no confusion with another identity: local areas kept in memory are keyed by the identity itself,
the other stores by its text form -/
def Safe (useSql : Bool) : Ident → Prop
  | .loc z p o => useSql = false ∨ (Ident.loc z p o).Plain
  | .ses z t p o => (Ident.ses z t p o).Plain

/-- what the database holds for an identity when the service starts -/
def stored (u : Bool) (rows : List (RowKey × Str)) : Ident → Str → Option Str
  | .loc z p o => fun k => if u = true then lookup rows ((z, p.text, o.ascii), k) else none
  | .ses .. => fun _ => none

/-- the map obtained by applying events in order to an empty map -/
def replayOne (m : Str → Option Str) (e : Event) : Str → Option Str :=
  match e.key with
  | some k => fun k' => if k' = k then e.new else m k'
  | none => fun _ => none

def replay (es : List Event) : Str → Option Str := es.foldl replayOne (fun _ => none)

/-- the events of one area -/
def eventsOf (st : St) (i : Ident) : List Event := st.events.filter (fun e => decide (e.ident = i))

end Verif.Storage
