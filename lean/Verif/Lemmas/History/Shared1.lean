import Verif.Spec.History
import Verif.Lemmas.History.Dropped1
/-
A part of the evaluation of `Lemmas/History.lean` (`rules_shared_members`), in a file of its own to bound the memory it takes;
the files import one another so that they are not built at the same time.
-/
namespace Vermin.Props
open Vermin Vermin.Py Vermin.Spec

theorem rules_shared_members : (sharedMembers.all fun e => decide ((Dict.get? Data.memReqs e.1).map (·.eval []) = some ⟨some ⟨2, e.2.1⟩, some ⟨3, e.2.2⟩⟩)) = true := by decide +kernel

end Vermin.Props
