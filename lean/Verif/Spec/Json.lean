import Verif.Model.Json

/-! Specification vocabulary for enum JSON and `as_dict`. -/

namespace Verif.Json

/-- The classes can be told apart, and each is a well-formed Python enum: no two classes share module and name,
a class name has no dot, and no two lines of a class define the same name. (Python gives this.) -/
structure Importable (world : List EnumClass) : Prop where
  classes : (world.map fun c => (c.module, c.name)).Nodup
  names : ∀ c ∈ world, '.' ∉ c.name
  defs : ∀ c ∈ world, (c.defs.map Prod.fst).Nodup

/-- The value of a key. -/
def Val.get : Val → String → Option Val
  | .dict es, k => (es.find? fun e => e.1 = k).map Prod.snd
  | _, _ => none

/-- Plain data: strings, other objects, lists and dictionaries of plain data. No class and no `Validatable`
anywhere. -/
inductive Plain : Val → Prop
  | str (s : String) : Plain (.str s)
  | other (id : Nat) : Plain (.other id)
  | list (l : List Val) : (∀ v ∈ l, Plain v) → Plain (.list l)
  | dict (es : List (String × Val)) : (∀ e ∈ es, Plain e.2) → Plain (.dict es)

/-- Values whose `Validatable`s are reachable through attributes and through lists in attributes only (not lists
in lists, not dictionaries). -/
inductive Reachable : Val → Prop
  | plain (v : Val) : Plain v → Reachable v
  | cls (n : String) : Reachable (.cls n)
  | obj (c : String) (attrs : List (String × Val)) : (∀ e ∈ attrs, Reachable e.2) → Reachable (.obj c attrs)
  | list (l : List Val) : (∀ v ∈ l, Reachable v) → (∀ v ∈ l, Plain v ∨ ∃ c a, v = .obj c a) →
      Reachable (.list l)

/-- Values made of strings, other objects, lists and `Validatable`s: no classes, no dictionaries and no attribute
named `__CLASS__`. -/
inductive Structured : Val → Prop
  | str (s : String) : Structured (.str s)
  | other (id : Nat) : Structured (.other id)
  | list (l : List Val) : (∀ v ∈ l, Structured v) → Structured (.list l)
  | obj (c : String) (attrs : List (String × Val)) : (attrs.map Prod.fst).Nodup →
      "__CLASS__" ∉ attrs.map Prod.fst → (∀ e ∈ attrs, Structured e.2) → Structured (.obj c attrs)

end Verif.Json
