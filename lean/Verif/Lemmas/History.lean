import Verif.Spec.History
import Verif.Props.Rules
import Verif.Lemmas.History.Members1
import Verif.Lemmas.History.Members2
import Verif.Lemmas.History.Dropped1
import Verif.Lemmas.History.Shared1
import Verif.Lemmas.History.Forgotten1
import Verif.Lemmas.History.Forgotten2
/-
The rules of the source against the lists of `Spec/History.lean`, by evaluation.
-/
namespace Vermin.Props
open Vermin Vermin.Py Vermin.Spec

theorem all_parts {α : Type} {l : List α} {p : α → Bool} (n : Nat) (h1 : (l.take n).all p = true) (h2 : (l.drop n).all p = true) : l.all p = true := by
  rw [← List.take_append_drop n l, List.all_append, h1, h2]; rfl

theorem rules_added : (addedModules.all fun e => decide ((Dict.get? Data.modReqs e.1).map (·.eval []) = some ⟨none, some ⟨3, e.2⟩⟩)) = true := by decide +kernel
theorem rules_members : (addedMembers.all fun e => decide ((Dict.get? Data.memReqs (e.1 ++ "." ++ e.2.1)).map (·.eval []) = some ⟨none, some ⟨3, e.2.2⟩⟩)) = true :=
  all_parts 27 rules_members1 rules_members2
theorem rules_dropped : (droppedModules.all fun k => match Dict.get? Data.modReqs k with
    | some (.const r) => r.py3.isNone
    | _ => false) = true := by decide +kernel
theorem rules_renamed : (renamedModules.all fun k => match (Dict.get? Data.modReqs k).map (·.eval []) with
    | some r => r.py2.isNone
    | _ => false) = true := by decide +kernel

theorem rules_shared : (sharedModules.all fun e => decide ((Dict.get? Data.modReqs e.1).map (·.eval []) = some ⟨some ⟨2, e.2.1⟩, some ⟨3, e.2.2⟩⟩)) = true := by
  decide +kernel
theorem rules_arguments :
    (addedArguments.all fun e => decide ((Dict.get? Data.kwReqs (e.1, e.2.1)).map (·.eval []) = some ⟨none, some ⟨3, e.2.2⟩⟩)) = true := by decide +kernel
theorem rules_forgotten : (forgottenMembers.all fun k => (Dict.get? Data.memReqs k).isNone && (Dict.get? Data.modReqs k).isNone) = true :=
  all_parts 7 rules_forgotten1 rules_forgotten2

end Vermin.Props
