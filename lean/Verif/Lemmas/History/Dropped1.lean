import Verif.Spec.History
import Verif.Lemmas.History.Members2
/-
A part of the evaluation of `Lemmas/History.lean` (`rules_dropped_members`), in a file of its own to bound the memory it takes;
the files import one another so that they are not built at the same time.
-/
namespace Vermin.Props
open Vermin Vermin.Py Vermin.Spec

theorem rules_dropped_members : (droppedMembers.all fun k => match Dict.get? Data.memReqs k with
    | some (.const r) => r.py3.isNone
    | _ => false) = true := by decide +kernel

end Vermin.Props
