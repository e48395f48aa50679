import Verif.Model.Accessors

/-! # Fields of structs -/

namespace Verif.Spec

open Json Accessors

/-- Among the values of the fields, the one of the field `name` is `x`. -/
inductive FieldOf : (fs : Fields) → fs.Val → (name : String) → (x : Any) → Prop
  | here {n : String} {s : Schema} {rest : Fields} {v : s.Val} {vs : rest.Val} :
      FieldOf (.cons n s rest) (v, vs) n ⟨s, v⟩
  | there {n m : String} {s : Schema} {rest : Fields} {v : s.Val} {vs : rest.Val} {x : Any} :
      FieldOf rest vs m x → FieldOf (.cons n s rest) (v, vs) m x

/-- A value is a struct that has the field `name`, with the value `x`. -/
inductive HasField : (s : Schema) → s.Val → (name : String) → (x : Any) → Prop
  | mk {fs : Fields} {v : fs.Val} {name : String} {x : Any} :
      FieldOf fs v name x → HasField (.record fs) v name x

/-- The function that asks for the variant of a fork -/
def variantName : Fork → String
  | .Phase0 => "phase0"
  | .Altair => "altair"
  | .Bellatrix => "bellatrix"
  | .Capella => "capella"
  | .Deneb => "deneb"
  | .Electra => "electra"

/-- The accessor is that of a field, not `version` and not that of a variant. -/
def OfField (a : Accessor) : Prop := a.name ≠ "version" ∧ ∀ f, a.name ≠ variantName f

/-- The value that a result gives access to -/
def content : Out → Option Any
  | .version _ => none
  | .value x => some x
  | .view _ _ x => some x

end Verif.Spec
