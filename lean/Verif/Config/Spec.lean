import Verif.Config.Model

/-!
# Specification vocabulary for C30–C34 and C62
-/
namespace Verif.Config
open Verif Verif.Map

/-- the value fits its Rust type (`isize`, `usize` on a 64-bit target) -/
def Setting.InRange : Setting → Prop
  | .sint n => -(2 ^ 63) ≤ n ∧ n < 2 ^ 63
  | .uint n => n < 2 ^ 64
  | _ => True

/-- two settings of the same type -/
inductive SameType : Setting → Setting → Prop
  | sint (a b) : SameType (.sint a) (.sint b)
  | uint (a b) : SameType (.uint a) (.uint b)
  | float (a b) : SameType (.float a) (.float b)
  | string (a b) : SameType (.string a) (.string b)
  | bool (a b) : SameType (.bool a) (.bool b)
  | map (a b) : SameType (.map a) (.map b)

/-- The number a range constraint is about.  Unlike the code's conversion, an unsigned number is itself
here, whatever its size. -/
def number (e : Ext) : Setting → Int
  | .sint n => n
  | .uint n => n
  | .float b => e.fint b
  | .bool b => if b then 1 else 0
  | .string s => if e.upper s ∈ ["YES", "ON", "TRUE", "1"].map String.toList then 1 else 0
  | .map vs => vs.length

/-- The value satisfies the constraint. -/
def Satisfies (e : Ext) : Constraint → Setting → Prop
  | .enum vs, v => v.valueString e ∈ vs
  | .range rs, v => ∃ r ∈ rs, r.1 ≤ number e v ∧ number e v ≤ r.2

/-- The value has the type of the setting and satisfies its constraint. -/
def Conforms (e : Ext) (i : Info) (v : Setting) : Prop :=
  SameType i.default v ∧ ∀ c, i.constraint = some c → Satisfies e c v

/-- A range constraint on an unsigned setting has no negative bounds (and bounds are `isize`). -/
def Sane (i : Info) : Prop :=
  ∀ n rs, i.default = .uint n → i.constraint = some (.range rs) → ∀ r ∈ rs, (0 : Int) ≤ r.1 ∧ r.2 < 2 ^ 63

/-- A schema whose defaults conform and whose ranges make sense. -/
def SchemaOk (e : Ext) (schema : List Info) : Prop :=
  ∀ i ∈ schema, Conforms e i i.default ∧ Sane i

/-- The last declaration of a key in a schema (later ones replace earlier ones). -/
def declared (schema : List Info) (k : Str) : Option Info :=
  schema.foldl (fun acc i => if i.key = k then some i else acc) none

/-- calls other than changing the storage or merging -/
def Op.Plain {σ : Type} : Op σ → Prop
  | .setStorage _ => False
  | .merge _ _ => False
  | _ => True

/-- the values given to calls fit their Rust types -/
def Op.Fits {σ : Type} : Op σ → Prop
  | .set _ v => v.InRange
  | _ => True

/-- the effect of one call and its report on the value of a key -/
def lastStep {σ : Type} (k : Str) (default : Setting) (acc : Setting) : Op σ × Out → Setting
  | (.set k' v, out) => if k' = k ∧ out.res = .ok then v else acc
  | (.remove k', out) => if k' = k ∧ out.res = .ok then default else acc
  | _ => acc

/-- The last value successfully set and not removed, otherwise the default. -/
def lastVal {σ : Type} (k : Str) (default : Setting) : List (Op σ × Out) → Setting :=
  List.foldl (lastStep k default) default

/-- how many `subscribe` calls a history contains -/
def countSubs {σ : Type} : List (Op σ) → Nat
  | [] => 0
  | .subscribe _ :: r => countSubs r + 1
  | _ :: r => countSubs r

/-- Subscription `id` with pattern `pat` is live after a history: it was issued by some `subscribe` call
(the one with that number, counting from zero) and not given back since. -/
def Live {σ : Type} (hist : List (Op σ)) (id : Nat) (pat : Str) : Prop :=
  ∃ pre post, hist = pre ++ .subscribe pat :: post ∧ id = countSubs pre ∧ ∀ o ∈ post, o ≠ .unsubscribe id

/-- the two values differ in the sense of `==` -/
def Differ (e : Ext) (a b : Option (Option Setting)) : Prop :=
  ∀ v w, a = some (some v) → b = some (some w) → v.eqv e w = false

/-- the key a call tries to change -/
def Op.target {σ : Type} : Op σ → Option Str
  | .set k _ => some k
  | .remove k => some k
  | _ => none

/-- the values whose text form is faithful: numbers of their Rust type, floats whose text parses back,
lists of comma-free elements other than the list of one empty string -/
def Writable (e : Ext) : Setting → Prop
  | .float b => e.fparse (e.fdisp b) = some b
  | .map vs => (∀ x ∈ vs, ',' ∉ x) ∧ vs ≠ [[]]
  | v => v.InRange

/-- the name a key gets when its store is merged under the namespace `base` -/
def prefixed (base k : Str) : Str := if base.isEmpty then k else base ++ ['.'] ++ k

end Verif.Config
