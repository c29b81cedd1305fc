import Verif.Spec.UpdateLate

/-! Specification vocabulary for commands that are executed one after the other, with tags that are used again. -/

namespace Verif.Modem

open Verif Verif.Serial

/-- Every command has a tag that differs from those of the commands since the last call that returned something; `open_` are
the tags of the commands before the series. -/
def TagsNew (exec : Update.Exec) : Nat → List (Option Int) → List Command → Prop
  | _, _, [] => True
  | n, open_, c :: cs => c.tagId ∉ open_ ∧
    match exec n c with
    | .ok [] => TagsNew exec (n + 1) (open_ ++ [c.tagId]) cs
    | _ => TagsNew exec (n + 1) [] cs

end Verif.Modem
