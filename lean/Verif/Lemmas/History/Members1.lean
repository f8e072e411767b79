import Verif.Spec.History
import Verif.Props.Rules
/-
A part of the evaluation of `Lemmas/History.lean` (`rules_members`), in a file of its own to bound the memory it takes;
the files import one another so that they are not built at the same time.
-/
namespace Vermin.Props
open Vermin Vermin.Py Vermin.Spec

theorem rules_members1 : ((addedMembers.take 27).all fun e => decide ((Dict.get? Data.memReqs (e.1 ++ "." ++ e.2.1)).map (·.eval []) = some ⟨none, some ⟨3, e.2.2⟩⟩)) = true := by decide +kernel

end Vermin.Props
