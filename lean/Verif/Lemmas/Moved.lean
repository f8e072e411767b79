import Verif.Model.Visitor
import Verif.Spec.Layout
/-
Programs that differ in the positions of their nodes only: what the visitor computes from nodes alone is the same.
-/
namespace Vermin
open Py V Spec

variable {g : Layout}

theorem movedAll_map (ks : List Node) : movedAll g ks = ks.map (Node.moved g) := by
  induction ks with
  | nil => rfl
  | cons k ks ih => simp [movedAll, ih]

namespace Node
variable (n : Node)
theorem moved_kids : (n.moved g).kids = n.kids.map (moved g) := by cases n; exact movedAll_map _
theorem moved_kind : (n.moved g).kind = n.kind := by cases n; rfl
theorem moved_fld : (n.moved g).fld = n.fld := by cases n; rfl
theorem moved_uid : (n.moved g).info.uid = g.uid n.info.uid := by cases n; rfl
theorem moved_filter (p : Node → Bool) (hp : ∀ k : Node, p (k.moved g) = p k) :
    (n.moved g).kids.filter p = (n.kids.filter p).map (moved g) := by
  rw [moved_kids, List.filter_map]
  congr 1
  exact List.filter_congr fun k _ => hp k
theorem moved_fields (f : Fld) : (n.moved g).fields f = (n.fields f).map (moved g) :=
  moved_filter n _ fun k => by simp only [moved_fld]
theorem moved_field (f : Fld) : (n.moved g).field f = (n.field f).map (moved g) := by
  unfold field
  rw [moved_kids, List.find?_map]
  congr 1
  congr 1
  funext k
  simp only [Function.comp, moved_fld]
theorem moved_nameId : (n.moved g).nameId = n.nameId := by unfold nameId; rw [moved_kind]
theorem moved_attrName : (n.moved g).attrName = n.attrName := by unfold attrName; rw [moved_kind]
theorem moved_constVal : (n.moved g).constVal = n.constVal := by unfold constVal; rw [moved_kind]
theorem moved_strVal : (n.moved g).strVal = n.strVal := by unfold strVal; rw [moved_kind]
theorem moved_opOf : (n.moved g).opOf = n.opOf := by unfold opOf; rw [moved_kind]
theorem moved_isCall : (n.moved g).isCall = n.isCall := by unfold isCall; rw [moved_kind]
/-- A property of the node in a field. -/
theorem moved_bind {α : Type} (x : Option Node) (p : Node → Option α) (hp : ∀ k : Node, p (k.moved g) = p k) : (x.map (moved g)).bind p = x.bind p := by
  cases x with
  | none => rfl
  | some k => exact hp k
end Node
open Node

theorem mergeLevels_map {α β : Type} (f : α → β) (xs ys : List (List α)) :
    mergeLevels (xs.map (List.map f)) (ys.map (List.map f)) = (mergeLevels xs ys).map (List.map f) := by
  fun_induction mergeLevels xs ys with
  | case1 ys => simp [mergeLevels]
  | case2 xs h => cases xs <;> simp [mergeLevels]
  | case3 x xs y ys ih => simp [mergeLevels, ih]

mutual
theorem levels_moved (stop : Node → Bool) (hs : ∀ k : Node, stop (k.moved g) = stop k) :
    (n : Node) → levels stop (n.moved g) = (levels stop n).map (List.map (Node.moved g))
  | .mk i ks => by
    have h := hs (.mk i ks)
    simp only [Node.moved] at h ⊢
    simp only [levels, h]
    split
    · rfl
    · simp only [List.map_cons, List.map_nil, levelsList_moved stop hs ks, Node.moved]
theorem levelsList_moved (stop : Node → Bool) (hs : ∀ k : Node, stop (k.moved g) = stop k) :
    (ks : List Node) → levelsList stop (movedAll g ks) = (levelsList stop ks).map (List.map (Node.moved g))
  | [] => rfl
  | k :: ks => by
    simp only [movedAll, levelsList, levels_moved stop hs k, levelsList_moved stop hs ks, mergeLevels_map]
end

theorem walk_moved (n : Node) : walk (n.moved g) = (walk n).map (Node.moved g) := by
  unfold walk
  rw [levels_moved _ (fun _ => rfl), List.map_flatten]
theorem assignTargetWalk_moved (n : Node) : assignTargetWalk (n.moved g) = (assignTargetWalk n).map (Node.moved g) := by
  unfold assignTargetWalk
  rw [levels_moved _ (fun k => by unfold isSubOrAttr; rw [moved_kind]), List.map_flatten]

section
variable (n : Node)
theorem intConst_moved : intConst (n.moved g) = intConst n := by unfold intConst; rw [moved_kind]
theorem isIntNode_moved : isIntNode (n.moved g) = isIntNode n := by
  simp only [isIntNode, intConst_moved, moved_kind, moved_field, moved_bind _ _ intConst_moved]
theorem isNegIntNode_moved : isNegIntNode (n.moved g) = isNegIntNode n := by
  simp only [isNegIntNode, intConst_moved, moved_kind, moved_field, moved_bind _ _ intConst_moved, moved_bind _ _ moved_opOf]
theorem isNoneNode_moved : isNoneNode (n.moved g) = isNoneNode n := by unfold isNoneNode; rw [moved_kind]
theorem isEllipsisNode_moved : isEllipsisNode (n.moved g) = isEllipsisNode n := by unfold isEllipsisNode; rw [moved_kind]
theorem isValidStarUnpack_moved : isValidStarUnpack (n.moved g) = isValidStarUnpack n := by unfold isValidStarUnpack; rw [moved_kind]
theorem kwArg_moved : kwArg (n.moved g) = kwArg n := by unfold kwArg; rw [moved_kind]
theorem kwConst_moved : kwConst (n.moved g) = kwConst n := by simp only [kwConst, moved_field, moved_bind _ _ moved_constVal]
theorem isEncodingKw_moved : isEncodingKw (n.moved g) = isEncodingKw n := by simp only [isEncodingKw, kwArg_moved]
theorem aliasOf_moved : aliasOf (n.moved g) = aliasOf n := by unfold aliasOf; rw [moved_kind]
theorem argName_moved : argName (n.moved g) = argName n := by unfold argName; rw [moved_kind]
theorem isBytes_moved : isBytes (n.moved g) = isBytes n := by unfold isBytes; rw [moved_kind]
theorem isNameOrAttr_moved : isNameOrAttr (n.moved g) = isNameOrAttr n := by unfold isNameOrAttr; rw [moved_kind]
theorem isBytearrayCall_moved : isBytearrayCall (n.moved g) = isBytearrayCall n := by
  simp only [isBytearrayCall, moved_isCall, moved_field, moved_bind _ _ moved_nameId]
theorem operator_moved : operator (n.moved g) = operator n := by simp only [operator, moved_field, moved_bind _ _ moved_opOf]
theorem isAnn_moved (x : String) : isAnn (n.moved g) x = isAnn n x := by
  simp only [isAnn, moved_nameId, moved_kind, moved_field, moved_bind _ _ moved_nameId]
theorem isFormat27_moved : isFormat27 (n.moved g) = isFormat27 n := by
  simp only [isFormat27, moved_field, moved_bind _ _ moved_strVal]
theorem decoRoot_moved : decoRoot (n.moved g) = (decoRoot n).moved g := by
  unfold decoRoot
  rw [moved_kind, moved_field]
  split
  · cases n.field .func <;> rfl
  · rfl
theorem eltsOf_moved : eltsOf (n.moved g) = (eltsOf n).map (Node.moved g) := moved_filter n _ fun k => by simp only [moved_fld]
theorem paramsOf_moved : paramsOf (n.moved g) = (paramsOf n).map (Node.moved g) := by
  unfold paramsOf
  rw [moved_field]
  cases n.field .args with
  | none => rfl
  | some a => exact moved_fields a _
theorem positions_moved (p : Node → Bool) (hp : ∀ k : Node, p (k.moved g) = p k) (l : List Node) :
    ∀ i, positions p i (l.map (Node.moved g)) = positions p i l := by
  induction l with
  | nil => intro i; rfl
  | cons k l ih => intro i; simp only [List.map_cons, positions, hp, ih]
theorem any_moved (p : Node → Bool) (hp : ∀ k : Node, p (k.moved g) = p k) (l : List Node) : (l.map (Node.moved g)).any p = l.any p := by
  rw [List.any_map]
  congr 1
  funext k
  exact hp k
theorem callUnpacks_moved : callUnpacks (n.moved g) = callUnpacks n := by
  unfold callUnpacks
  rw [moved_fields, moved_fields, positions_moved _ isValidStarUnpack_moved, positions_moved _ (fun k => by simp only [kwArg_moved]),
    List.length_map, List.length_map]
theorem unpacks_moved : unpacks (n.moved g) = unpacks n := by
  simp only [unpacks, callUnpacks_moved, moved_kind, moved_fields, any_moved _ isValidStarUnpack_moved]
theorem isInversePow_moved : isInversePow (n.moved g) = isInversePow n := by
  unfold isInversePow
  rw [moved_fields]
  generalize n.fields .args = l
  match l with
  | [] => rfl
  | [_] => rfl
  | [_, _] => rfl
  | [a, b, c] => simp only [List.map_cons, List.map_nil, isIntNode_moved, isNegIntNode_moved]
  | _ :: _ :: _ :: _ :: _ => rfl
end

/-! ### Names -/

section
variable (ma nr : Dict String String) (n : Node)

theorem attrNames_moved (attr : String) : attrNames ma (n.moved g) attr = attrNames ma n attr := by
  simp only [attrNames, moved_field, moved_bind _ _ moved_nameId]
theorem callNames_moved : callNames (n.moved g) = callNames n := by
  simp only [callNames, moved_field, moved_bind _ _ moved_nameId]
theorem attrStep_moved (full : List (Option String)) (p : Bool) : attrStep ma full p (n.moved g) = attrStep ma full p n := by
  simp only [attrStep, moved_kind, attrNames_moved, callNames_moved]
theorem attrLoop_moved (l : List Node) : ∀ full p, attrLoop ma full p (l.map (Node.moved g)) = attrLoop ma full p l := by
  induction l with
  | nil => intro _ _; rfl
  | cons k l ih => intro full p; simp only [List.map_cons, attrLoop, attrStep_moved, ih]
theorem attributeName_moved : attributeName ma (n.moved g) = attributeName ma n := by
  simp only [attributeName, walk_moved, attrLoop_moved]
theorem dottedAttr_moved : dottedAttr ma (n.moved g) = dottedAttr ma n := by simp only [dottedAttr, attributeName_moved]
theorem plainName_moved : plainName ma (n.moved g) = plainName ma n := by
  simp only [plainName, moved_kind, dottedAttr_moved, moved_field, moved_bind _ _ moved_nameId]

/-- Results paired with moved nodes. -/
def movedPairs {α : Type} (g : Layout) (l : List (Node × α)) : List (Node × α) := l.map fun k => (k.1.moved g, k.2)

theorem find_movedPairs {α : Type} (f : Fld) (l : List (Node × α)) :
    ((movedPairs g l).find? fun k => decide (k.1.fld = f)) = (l.find? fun k => decide (k.1.fld = f)).map fun k => (k.1.moved g, k.2) := by
  unfold movedPairs
  rw [List.find?_map]
  congr 1
  congr 1
  funext k
  simp only [Function.comp, moved_fld]
theorem kidDicts_moved (ks : List (Node × DictInfo)) (f : Fld) : kidDicts (movedPairs g ks) f = kidDicts ks f := by
  simp only [kidDicts, find_movedPairs]
  cases List.find? (fun k => decide (k.1.fld = f)) ks <;> rfl
theorem lambdaKids_moved (ks : List (Node × DictInfo)) : lambdaKids (n.moved g) (movedPairs g ks) = lambdaKids n ks := by
  simp only [lambdaKids, kidDicts_moved, moved_field, Option.any_map]
  congr 2
  congr 1
  funext k
  simp only [Function.comp, moved_kind]
theorem subscriptIndex_moved : subscriptIndex (n.moved g) = subscriptIndex n := by
  simp only [subscriptIndex, moved_field]
  cases n.field .slice with
  | none => rfl
  | some s => simp only [Option.map_some, moved_kind, moved_field, moved_bind _ _ moved_constVal, moved_constVal]
theorem isDictStep_moved (ks : List (Node × DictInfo)) : isDictStep nr (n.moved g) (movedPairs g ks) = isDictStep nr n ks := by
  simp only [isDictStep, subscriptIndex_moved, moved_kind, lambdaKids_moved, kidDicts_moved, moved_field, moved_bind _ _ moved_nameId, moved_bind _ _ moved_constVal]

mutual
theorem dictInfo_moved : (n : Node) → dictInfo nr (n.moved g) = dictInfo nr n
  | .mk i ks => by
    have h := isDictStep_moved (g := g) nr (.mk i ks) (dictInfos nr ks)
    simp only [Node.moved] at h
    simp only [Node.moved, dictInfo, dictInfos_moved ks, h]
    congr 1
    simp only [movedPairs, List.map_map]
    congr 1
    funext k
    simp only [Function.comp, moved_fld]
theorem dictInfos_moved : (ks : List Node) → dictInfos nr (movedAll g ks) = movedPairs g (dictInfos nr ks)
  | [] => rfl
  | k :: ks => by
    simp only [movedAll, dictInfos, dictInfo_moved k, dictInfos_moved ks]
    rfl
end

theorem isDict_moved : isDict nr (n.moved g) = isDict nr n := by simp only [isDict, dictInfo_moved]
theorem anyDict_moved (l : List Node) : anyDict nr (l.map (Node.moved g)) = anyDict nr l := by
  induction l with
  | nil => rfl
  | cons k l ih => simp only [List.map_cons, anyDict, isDict_moved, ih]

theorem fOne_moved (ks : List (Node × FInfo)) (f : Fld) : fOne (movedPairs g ks) f = fOne ks f := by
  simp only [fOne, find_movedPairs]
  cases List.find? (fun k => decide (k.1.fld = f)) ks <;> rfl
theorem fAll_moved (ks : List (Node × FInfo)) (f : Fld) : fAll (movedPairs g ks) f = fAll ks f := by
  simp only [fAll, movedPairs, List.filter_map, List.map_map]
  congr 1
  exact List.filter_congr fun k _ => by simp only [Function.comp, moved_fld]
theorem fItem_moved (ks : List (Node × FInfo)) : fItem ma (n.moved g) (movedPairs g ks) = fItem ma n ks := by
  unfold fItem
  simp only [moved_kind, fOne_moved, fAll_moved, attributeName_moved, moved_fields, List.isEmpty_map]
theorem fLevels_moved (ks : List (Node × FInfo)) : fLevels (movedPairs g ks) = fLevels ks := by
  induction ks with
  | nil => rfl
  | cons k ks ih =>
    have : movedPairs g (k :: ks) = (k.1.moved g, k.2) :: movedPairs g ks := rfl
    rw [this]
    simp only [fLevels, ih]

mutual
theorem fInfo_moved : (n : Node) → fInfo ma (n.moved g) = fInfo ma n
  | .mk i ks => by
    have h := fItem_moved (g := g) ma (.mk i ks) (fInfos ma ks)
    simp only [Node.moved] at h
    simp only [Node.moved, fInfo, fInfos_moved ks, h, fLevels_moved]
theorem fInfos_moved : (ks : List Node) → fInfos ma (movedAll g ks) = movedPairs g (fInfos ma ks)
  | [] => rfl
  | k :: ks => by
    simp only [movedAll, fInfos, fInfo_moved k, fInfos_moved ks]
    rfl
end

theorem extractFstring_moved : extractFstring ma (n.moved g) = extractFstring ma n := by simp only [extractFstring, fInfo_moved]
theorem assignedAttr_moved : assignedAttr ma (n.moved g) = assignedAttr ma n := by simp only [assignedAttr, dottedAttr_moved]
theorem assignedCall_moved : assignedCall ma (n.moved g) = assignedCall ma n := by
  simp only [assignedCall, moved_field]
  cases n.field .func with
  | none => rfl
  | some f => simp only [Option.map_some, moved_kind, assignedAttr_moved]
theorem assignedName_moved : assignedName ma (n.moved g) = assignedName ma n := by
  simp only [assignedName, moved_kind, assignedAttr_moved, assignedCall_moved]

end

end Vermin
