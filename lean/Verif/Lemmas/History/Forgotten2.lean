import Verif.Spec.History
import Verif.Lemmas.History.Forgotten1
/-
A part of the evaluation of `Lemmas/History.lean` (`rules_forgotten`), in a file of its own to bound the memory it takes;
the files import one another so that they are not built at the same time.
-/
namespace Vermin.Props
open Vermin Vermin.Py Vermin.Spec

theorem rules_forgotten2 : ((forgottenMembers.drop 7).all fun k => (Dict.get? Data.memReqs k).isNone && (Dict.get? Data.modReqs k).isNone) = true := by decide +kernel

end Vermin.Props
