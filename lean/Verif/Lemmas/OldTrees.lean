import Verif.Lemmas.Shift
import Verif.Lemmas.Walks
import Verif.Lemmas.Moved
import Verif.Lemmas.Names
import Verif.Spec.OldTrees
/-
Trees of Python 3.8 and what 3.9 has in their place are visited alike.
-/
namespace Vermin
open Py V Spec Node

theorem putIn_kind (f : Fld) (n : Node) : (putIn f n).kind = n.kind := by cases n; rfl
theorem putIn_fld (f : Fld) (n : Node) : (putIn f n).fld = f := by cases n; rfl
theorem putIn_kids (f : Fld) (n : Node) : (putIn f n).kids = n.kids := by cases n; rfl
theorem putIn_uid (f : Fld) (n : Node) : (putIn f n).info.uid = n.info.uid := by cases n; rfl
theorem putIn_line (f : Fld) (n : Node) : (putIn f n).info.line = n.info.line := by cases n; rfl
theorem putIn_col (f : Fld) (n : Node) : (putIn f n).info.col = n.info.col := by cases n; rfl
theorem putIn_self (n : Node) : putIn n.fld n = n := by cases n; rfl
theorem putIn_putIn (f g : Fld) (n : Node) : putIn f (putIn g n) = putIn f n := by cases n; rfl

theorem modernAll_map : ∀ ks : List Node, modernAll ks = ks.map modern
  | [] => rfl
  | k :: ks => by rw [modernAll, modernAll_map ks]; rfl

theorem modern_fld (n : Node) : (modern n).fld = n.fld := by
  obtain ⟨i, ks⟩ := n
  unfold modern
  split
  · rw [putIn_fld]; rfl
  · rfl
  · rfl
theorem modern_plain {n : Node} (h : n.kind ≠ .index) (h' : n.kind ≠ .extSlice) : modern n = .mk n.info (n.kids.map modern) := by
  obtain ⟨i, ks⟩ := n
  unfold modern
  split
  · rename_i hi _; exact absurd hi h
  · rename_i hi; exact absurd hi h'
  · rw [modernAll_map]; rfl
theorem modern_index {i : Info} {w : Node} (h : i.kind = .index) : modern (.mk i [w]) = putIn i.fld (modern w) := by
  simp only [modern, modernAll, h]

theorem Spec.Old.self {n : Node} (h : Old n) : OldNode n := h n (.self n)
theorem Spec.Old.kid {n k : Node} (h : Old n) (hk : k ∈ n.kids) : Old k := fun m hm => h m (.kid hk hm)

/-- `n` is a node of Python 3.8 and `n'` what 3.9 has in its place, perhaps in another field. -/
structure Looks (n n' : Node) : Prop where
  old : Old n
  plain : n.kind ≠ .index
  eq : ∃ f, n' = putIn f (modern n)

theorem looks_modern {n : Node} (h : Old n) (hk : n.kind ≠ .index) : Looks n (modern n) := ⟨h, hk, (modern n).fld, (putIn_self _).symm⟩
theorem Looks.put {n n' : Node} (h : Looks n n') (f : Fld) : Looks n (putIn f n') := by
  obtain ⟨g, hg⟩ := h.eq
  exact ⟨h.old, h.plain, f, by rw [hg, putIn_putIn]⟩

variable {n n' : Node}

namespace Looks
variable (h : Looks n n')
include h
theorem node : modern n = .mk n.info (n.kids.map modern) := modern_plain h.plain h.old.self.slices
theorem kind : n'.kind = n.kind := by obtain ⟨f, rfl⟩ := h.eq; rw [putIn_kind, h.node]; rfl
theorem line' : n'.info.line = n.info.line := by obtain ⟨f, rfl⟩ := h.eq; rw [putIn_line, h.node]; rfl
theorem line : n'.line = n.line := by unfold Node.line; rw [h.line']
theorem col : n'.col = n.col := by obtain ⟨f, rfl⟩ := h.eq; unfold Node.col; rw [putIn_col, h.node]; rfl
theorem uid : n'.info.uid = n.info.uid := by obtain ⟨f, rfl⟩ := h.eq; rw [putIn_uid, h.node]; rfl
theorem kids : n'.kids = n.kids.map modern := by obtain ⟨f, rfl⟩ := h.eq; rw [putIn_kids, h.node]; rfl
theorem filter (p : Node → Bool) (hp : ∀ k : Node, p (modern k) = p k) : n'.kids.filter p = (n.kids.filter p).map modern := by
  rw [h.kids, List.filter_map]
  congr 1
  exact List.filter_congr fun k _ => hp k
theorem fields (f : Fld) : n'.fields f = (n.fields f).map modern := h.filter _ fun k => by simp only [modern_fld]
theorem field (f : Fld) : n'.field f = (n.field f).map modern := by
  unfold Node.field
  rw [h.kids, List.find?_map]
  congr 1
  congr 1
  funext k
  simp only [Function.comp, modern_fld]
theorem kid {k : Node} (hk : k ∈ n.kids) (hf : k.fld ≠ .slice) : Looks k (modern k) :=
  looks_modern (h.old.kid hk) fun hi => hf ((h.old.kid hk).self.index hi).1
theorem ofField {f : Fld} {k : Node} (hk : n.field f = some k) (hf : f ≠ .slice) : Looks k (modern k) := by
  refine h.kid (List.mem_of_find?_eq_some hk) ?_
  have := List.find?_some hk
  rw [of_decide_eq_true this]
  exact hf
theorem ofFields {f : Fld} {k : Node} (hk : k ∈ n.fields f) (hf : f ≠ .slice) : Looks k (modern k) := by
  obtain ⟨h1, h2⟩ := List.mem_filter.mp hk
  refine h.kid h1 ?_
  rw [of_decide_eq_true h2]
  exact hf

theorem optField {f : Fld} {a : V} {F G : Node → V} (H : ∀ k, n.field f = some k → Looks k (modern k) → G (modern k) = F k) (hf : f ≠ .slice := by decide) :
    V.opt (n'.field f) a G = V.opt (n.field f) a F := by
  rw [h.field]
  cases hk : n.field f with
  | none => rfl
  | some k => exact H k hk (h.ofField hk hf)
theorem eachField {f : Fld} {F G : Node → V} (H : ∀ k ∈ n.fields f, Looks k (modern k) → G (modern k) = F k) (hf : f ≠ .slice := by decide) :
    V.each G (n'.fields f) = V.each F (n.fields f) := by
  rw [h.fields]
  have : ∀ l : List Node, (∀ k ∈ l, G (modern k) = F k) → V.each G (l.map modern) = V.each F l := by
    intro l
    induction l with
    | nil => intro _; rfl
    | cons k l ih => intro hl; simp only [List.map_cons, V.each, hl k (by simp), ih fun x hx => hl x (by simp [hx])]
  exact this _ fun k hk => H k hk (h.ofFields hk hf)
theorem bindField {α : Type} (f : Fld) {p : Node → Option α} (hp : ∀ {k k'}, Looks k k' → p k' = p k) (hf : f ≠ .slice := by decide) :
    (n'.field f).bind p = (n.field f).bind p := by
  rw [h.field]
  cases hk : n.field f with
  | none => rfl
  | some k => exact hp (h.ofField hk hf)
theorem anyFields (f : Fld) {p : Node → Bool} (hp : ∀ {k k'}, Looks k k' → p k' = p k) (hf : f ≠ .slice := by decide) :
    (n'.fields f).any p = (n.fields f).any p := by
  rw [h.fields, List.any_map, Bool.eq_iff_iff, List.any_eq_true, List.any_eq_true]
  exact ⟨fun ⟨k, hk, hq⟩ => ⟨k, hk, (hp (h.ofFields hk hf)).symm.trans hq⟩, fun ⟨k, hk, hq⟩ => ⟨k, hk, (hp (h.ofFields hk hf)).trans hq⟩⟩
theorem positionsOf (f : Fld) {p : Node → Bool} (hp : ∀ {k k'}, Looks k k' → p k' = p k) (hf : f ≠ .slice := by decide) :
    positions p 0 (n'.fields f) = positions p 0 (n.fields f) := by
  rw [h.fields]
  have : ∀ (l : List Node) (i : Nat), (∀ k ∈ l, p (modern k) = p k) → positions p i (l.map modern) = positions p i l := by
    intro l
    induction l with
    | nil => intro _ _; rfl
    | cons k l ih => intro i hl; simp only [List.map_cons, positions, hl k (by simp), ih _ fun x hx => hl x (by simp [hx])]
  exact this _ 0 fun k hk => hp (h.ofFields hk hf)

theorem nameId : n'.nameId = n.nameId := by unfold Node.nameId; rw [h.kind]
theorem constVal : n'.constVal = n.constVal := by unfold Node.constVal; rw [h.kind]
theorem strVal : n'.strVal = n.strVal := by unfold Node.strVal; rw [h.kind]
theorem opOf : n'.opOf = n.opOf := by unfold Node.opOf; rw [h.kind]
theorem isCall : n'.isCall = n.isCall := by unfold Node.isCall; rw [h.kind]
theorem intConst : intConst n' = Vermin.intConst n := by unfold Vermin.intConst; rw [h.kind]
theorem isIntNode : isIntNode n' = Vermin.isIntNode n := by
  simp only [Vermin.isIntNode, h.intConst, h.kind, h.bindField .operand (fun h => h.intConst)]
theorem isNegIntNode : isNegIntNode n' = Vermin.isNegIntNode n := by
  simp only [Vermin.isNegIntNode, h.intConst, h.kind, h.bindField .operand (fun h => h.intConst), h.bindField .op (fun h => h.opOf)]
theorem isNoneNode : isNoneNode n' = Vermin.isNoneNode n := by unfold Vermin.isNoneNode; rw [h.kind]
theorem isEllipsisNode : isEllipsisNode n' = Vermin.isEllipsisNode n := by unfold Vermin.isEllipsisNode; rw [h.kind]
theorem isValidStarUnpack : isValidStarUnpack n' = Vermin.isValidStarUnpack n := by unfold Vermin.isValidStarUnpack; rw [h.kind]
theorem kwArg : kwArg n' = Vermin.kwArg n := by unfold Vermin.kwArg; rw [h.kind]
theorem kwConst : kwConst n' = Vermin.kwConst n := h.bindField _ fun h => h.constVal
theorem isEncodingKw : isEncodingKw n' = Vermin.isEncodingKw n := by simp only [Vermin.isEncodingKw, h.kwArg]
theorem aliasOf : aliasOf n' = Vermin.aliasOf n := by unfold Vermin.aliasOf; rw [h.kind]
theorem argName : argName n' = Vermin.argName n := by unfold Vermin.argName; rw [h.kind]
theorem isBytes : isBytes n' = Vermin.isBytes n := by unfold Vermin.isBytes; rw [h.kind]
theorem isNameOrAttr : isNameOrAttr n' = Vermin.isNameOrAttr n := by unfold Vermin.isNameOrAttr; rw [h.kind]
theorem isBytearrayCall : isBytearrayCall n' = Vermin.isBytearrayCall n := by
  simp only [Vermin.isBytearrayCall, h.isCall, h.bindField .func (fun h => h.nameId)]
theorem operator : operator n' = Vermin.operator n := h.bindField _ fun h => h.opOf
theorem isAnn (x : String) : isAnn n' x = Vermin.isAnn n x := by
  simp only [Vermin.isAnn, h.nameId, h.kind, h.bindField .value (fun h => h.nameId)]
theorem isFormat27 : isFormat27 n' = Vermin.isFormat27 n := by simp only [Vermin.isFormat27, h.bindField .value (fun h => h.strVal)]
theorem decoRoot : Looks (decoRoot n) (Vermin.decoRoot n') := by
  unfold Vermin.decoRoot
  rw [h.kind, h.field]
  split
  · cases hk : n.field .func with
    | none => exact h
    | some k => exact h.ofField hk (by decide)
  · exact h
theorem unpacks : unpacks n' = Vermin.unpacks n := by
  have hc : callUnpacks n' = callUnpacks n := by
    unfold callUnpacks
    rw [h.positionsOf _ (fun h => h.isValidStarUnpack), h.positionsOf _ (fun h => by rw [h.kwArg]), h.fields, h.fields, List.length_map, List.length_map]
  simp only [Vermin.unpacks, hc, h.kind, h.anyFields .elts (fun h => h.isValidStarUnpack)]
theorem isInversePow : isInversePow n' = Vermin.isInversePow n := by
  unfold Vermin.isInversePow
  rw [h.fields]
  have : ∀ k ∈ n.fields .args, Looks k (modern k) := fun k hk => h.ofFields hk (by decide)
  generalize n.fields .args = l at this
  match l, this with
  | [], _ => rfl
  | [_], _ => rfl
  | [_, _], _ => rfl
  | [a, b, c], hl =>
    simp only [List.map_cons, List.map_nil, (hl a (by simp)).isIntNode, (hl b (by simp)).isNegIntNode, (hl c (by simp)).isIntNode]
  | _ :: _ :: _ :: _ :: _, _ => rfl
end Looks

/-! ### Walks -/

theorem Looks.kidOf {k : Node} (h : Looks n n') (hs : n.kind ≠ .subscript) (hk : k ∈ n.kids) : Looks k (modern k) :=
  looks_modern (h.old.kid hk) fun hi => hs (h.old.self.subscript k hk hi)

mutual
theorem targetLevels_old : (n : Node) → ∀ n', Looks n n' → (levels isSubOrAttr n').map (List.map Node.kind) = (levels isSubOrAttr n).map (List.map Node.kind)
  | .mk i ks => fun n' h => by
    have hs : isSubOrAttr n' = isSubOrAttr (.mk i ks) := by unfold isSubOrAttr; rw [h.kind]
    rw [levels_kids, levels_kids, hs]
    split
    · rfl
    · rename_i hn
      have hk : ∀ k ∈ ks, Looks k (modern k) := fun k hk => h.kidOf (fun he => hn (by unfold isSubOrAttr; rw [he])) hk
      simp only [List.map_cons, List.map_nil, h.kind, h.kids]
      exact congrArg _ (targetLevelsAll_old ks hk)
theorem targetLevelsAll_old : (ks : List Node) → (∀ k ∈ ks, Looks k (modern k)) →
    (levelsList isSubOrAttr (ks.map modern)).map (List.map Node.kind) = (levelsList isSubOrAttr ks).map (List.map Node.kind)
  | [], _ => rfl
  | k :: ks, h => by
    rw [List.map_cons, levelsList, levelsList, ← mergeLevels_map, ← mergeLevels_map, targetLevels_old k _ (h k (by simp)),
      targetLevelsAll_old ks fun x hx => h x (by simp [hx])]
end

theorem addUserDefNode_old (h : Looks n n') : addUserDefNode n' = addUserDefNode n := by unfold addUserDefNode; rw [h.kind]

theorem each_kinds {f : Kind → V} {F : Node → V} (hf : ∀ k, F k = f k.kind) : ∀ l : List Node, V.each F l = V.each f (l.map Node.kind)
  | [] => rfl
  | k :: l => by rw [V.each, List.map_cons, V.each, each_kinds hf l, hf]
theorem addTargets_old (h : Looks n n') : addTargets n' = addTargets n := by
  unfold addTargets
  have hf := each_kinds (F := addUserDefNode) (f := fun x => addUserDefNode (.mk { n.info with kind := x } [])) fun k => rfl
  rw [hf, hf]
  unfold assignTargetWalk
  rw [List.map_flatten, List.map_flatten, targetLevels_old n n' h]

theorem any_mergeLevels {α : Type} (p : α → Bool) (a b : List (List α)) :
    (mergeLevels a b).flatten.any p = (a.flatten.any p || b.flatten.any p) := by
  rw [Bool.eq_iff_iff, Bool.or_eq_true, List.any_eq_true, List.any_eq_true, List.any_eq_true]
  simp only [mem_mergeLevels]
  exact ⟨fun ⟨x, hx, hp⟩ => hx.elim (fun h => .inl ⟨x, h, hp⟩) fun h => .inr ⟨x, h, hp⟩,
    fun h => h.elim (fun ⟨x, h, hp⟩ => ⟨x, .inl h, hp⟩) fun ⟨x, h, hp⟩ => ⟨x, .inr h, hp⟩⟩

mutual
theorem relaxed_old : (n : Node) → ∀ n', Looks n n' → (walk n').any (fun m => !isNameOrAttr m) = (walk n).any fun m => !isNameOrAttr m
  | .mk i ks => fun n' h => by
    unfold walk
    rw [levels_kids, levels_kids]
    simp only [Bool.false_eq_true, if_false, List.flatten_cons, List.any_append, List.any_cons, List.any_nil, Bool.or_false, h.isNameOrAttr]
    by_cases hs : i.kind = .subscript
    · have : isNameOrAttr (.mk i ks) = false := by unfold isNameOrAttr Node.kind Node.info; rw [hs]
      rw [this]; rfl
    · rw [h.kids]
      exact congrArg _ (relaxedAll_old ks fun k hk => h.kidOf hs hk)
theorem relaxedAll_old : (ks : List Node) → (∀ k ∈ ks, Looks k (modern k)) →
    (levelsList (fun _ => false) (ks.map modern)).flatten.any (fun m => !isNameOrAttr m) = (levelsList (fun _ => false) ks).flatten.any fun m => !isNameOrAttr m
  | [], _ => rfl
  | k :: ks, h => by
    rw [List.map_cons, levelsList, levelsList, any_mergeLevels, any_mergeLevels, relaxedAll_old ks fun x hx => h x (by simp [hx])]
    exact congrArg (· || _) (relaxed_old k _ (h k (by simp)))
end

/-! ### Names -/

variable (ma nr : Dict String String)

theorem attrStep_old (h : Looks n n') (full : List (Option String)) (p : Bool) : attrStep ma full p n' = attrStep ma full p n := by
  simp only [attrStep, attrNames, callNames, h.kind, h.bindField .value (fun h => h.nameId), h.bindField .func (fun h => h.nameId)]
theorem attrStep_putIn (f : Fld) (n : Node) (full : List (Option String)) (p : Bool) : attrStep ma full p (putIn f n) = attrStep ma full p n := by
  simp only [attrStep, attrNames, callNames, putIn_kind, Node.field, putIn_kids]
theorem attrLoop_putIn (f : Fld) : ∀ (l : List Node) full p, attrLoop ma full p (l.map (putIn f)) = attrLoop ma full p l
  | [], _, _ => rfl
  | k :: l, full, p => by simp only [List.map_cons, attrLoop, attrStep_putIn, attrLoop_putIn f l]
theorem attrLoop_sticky (l : List Node) (full : List (Option String)) (p : Bool) : attrLoop ma full (p || headBuiltin full) l = attrLoop ma full p l := by
  cases l with
  | nil => rfl
  | cons k l => simp only [attrLoop, Bool.or_assoc, Bool.or_self]
theorem attrLoop_index : ∀ (l : List Node) full p, attrLoop ma full p (l.filter fun m => decide (m.kind ≠ .index)) = attrLoop ma full p l
  | [], _, _ => rfl
  | k :: l, full, p => by
    by_cases hk : k.kind = .index
    · rw [List.filter_cons_of_neg (by simp [hk]), attrLoop_index l, attrLoop]
      simp only [attrStep, hk]
      exact (attrLoop_sticky ma l full p).symm
    · rw [List.filter_cons_of_pos (by simp [hk]), attrLoop, attrLoop]
      simp only [attrLoop_index l]
theorem attrLoop_old : ∀ l : List Node, (∀ k ∈ l, Looks k (modern k)) → ∀ full p, attrLoop ma full p (l.map fun m => putIn .value (modern m)) = attrLoop ma full p l
  | [], _, _, _ => rfl
  | k :: l, h, full, p => by
    simp only [List.map_cons, attrLoop, attrStep_putIn, attrStep_old ma (h k (by simp)), attrLoop_old l fun x hx => h x (by simp [hx])]

theorem walk_looks (h : Old n) {k : Node} (hk : k ∈ (walk n).filter fun m => decide (m.kind ≠ .index)) : Looks k (modern k) := by
  obtain ⟨h1, h2⟩ := List.mem_filter.mp hk
  exact looks_modern (fun m hm => h m (In.trans hm (mem_walk h1))) (of_decide_eq_true h2)
theorem walk_putIn (f : Fld) (n : Node) : (walk (putIn f n)).map (putIn .value) = (walk n).map (putIn .value) := by
  unfold walk
  rw [levels_kids, levels_kids, putIn_kids]
  simp only [Bool.false_eq_true, if_false, List.flatten_cons, List.map_append, List.map_cons, putIn_putIn]

theorem attributeName_old (h : Looks n n') (hw : SameWalk n) : attributeName ma n' = attributeName ma n := by
  unfold attributeName
  obtain ⟨f, rfl⟩ := h.eq
  rw [← attrLoop_putIn ma .value (walk (putIn f (modern n))), walk_putIn, hw, attrLoop_old ma _ fun k hk => walk_looks h.old hk, attrLoop_index]
theorem dottedAttr_old (h : Looks n n') (hw : SameWalk n) : dottedAttr ma n' = dottedAttr ma n := by simp only [dottedAttr, attributeName_old ma h hw]
theorem attrDotted_old (h : Looks n n') {a : String} (ha : n.kind = .attribute a) : dottedAttr ma n' = dottedAttr ma n :=
  dottedAttr_old ma h (h.old.self.attrs a ha)

theorem plainName_old (h : Looks n n') : plainName ma n' = plainName ma n := by
  unfold plainName
  rw [h.kind, h.bindField .func (fun h => h.nameId)]
  split
  · rfl
  · rfl
  · rename_i a ha; rw [attrDotted_old ma h ha]
  · rfl

/-! ### Dictionaries -/

theorem dictInfos_each : ∀ ks : List Node, dictInfos nr ks = ks.map fun k => (k, dictInfo nr k)
  | [] => rfl
  | k :: ks => by rw [dictInfos, dictInfos_each ks]; rfl
theorem kidDicts_map (n : Node) (f : Fld) : kidDicts (dictInfos nr n.kids) f = match n.field f with
    | some k => (dictInfo nr k).kids
    | none => [] := by
  unfold kidDicts Node.field
  rw [dictInfos_each, List.find?_map]
  show (match Option.map (fun k => (k, dictInfo nr k)) (List.find? (fun k => decide (k.fld = f)) n.kids) with | some k => k.2.kids | none => []) = _
  cases List.find? (fun k => decide (k.fld = f)) n.kids <;> rfl

/-- Not in a slice. -/
def offSlice (x : Fld × Except Err Bool) : Bool := decide (x.1 ≠ .slice)

theorem dictInfo_fields (n : Node) : (dictInfo nr n).kids = n.kids.map fun k => (k.fld, (dictInfo nr k).self) := by
  obtain ⟨i, ks⟩ := n
  rw [dictInfo]
  simp only [dictInfos_each, List.map_map]
  rfl
theorem dictInfo_self (n : Node) : (dictInfo nr n).self = isDictStep nr n (dictInfos nr n.kids) := by obtain ⟨i, ks⟩ := n; rw [dictInfo]; rfl

theorem filter_offSlice {p : Fld × Except Err Bool → Bool} (hp : ∀ x, p x = true → offSlice x = true) (l : List (Fld × Except Err Bool)) :
    (l.filter offSlice).filter p = l.filter p := by
  rw [List.filter_filter]
  refine List.filter_congr fun x _ => ?_
  cases hx : p x with
  | true => rw [hp x hx]; rfl
  | false => rfl
theorem find_offSlice {p : Fld × Except Err Bool → Bool} (hp : ∀ x, p x = true → offSlice x = true) (l : List (Fld × Except Err Bool)) :
    (l.filter offSlice).find? p = l.find? p := by
  rw [List.find?_filter]
  congr 1
  funext x
  cases hx : p x with
  | true => rw [hp x hx]; rfl
  | false => simp

theorem index_value (h : Old n) (hk : n.kind = .index) : ∃ w, n.field .value = some w ∧ w.kind ≠ .index ∧ (∀ b, w.kind ≠ .const (.bool b)) ∧
    Old w ∧ modern n = putIn n.fld (modern w) := by
  obtain ⟨w, hw, hf, hi, hb⟩ := h.self.value hk
  refine ⟨w, ?_, hi, hb, h.kid (by rw [hw]; simp), ?_⟩
  · unfold Node.field
    rw [hw]
    simp [hf]
  · obtain ⟨i, ks⟩ := n
    change ks = [w] at hw
    subst hw
    exact modern_index hk

theorem subscriptIndex_old (h : Looks n n') : subscriptIndex n' = subscriptIndex n := by
  unfold subscriptIndex
  rw [h.field]
  cases hs : n.field .slice with
  | none => rfl
  | some s =>
    have ho : Old s := h.old.kid (List.mem_of_find?_eq_some hs)
    simp only [Option.map_some]
    by_cases hk : s.kind = .index
    · obtain ⟨w, hw, hi, hb, how, hm⟩ := index_value ho hk
      have hl := (looks_modern how hi).put s.fld
      rw [hm, if_pos hk, hl.kind, if_neg hi, hl.constVal, hw]
      simp only [Option.bind_some, Node.constVal]
      cases hwk : w.kind with
      | const c => cases c with
        | bool b => exact absurd hwk (hb b)
        | _ => rfl
      | _ => rfl
    · have hl := looks_modern ho hk
      rw [hl.kind, if_neg hk, if_neg hk, hl.constVal]

mutual
theorem dictInfo_old : (n : Node) → ∀ n', Looks n n' →
    (dictInfo nr n').self = (dictInfo nr n).self ∧ (dictInfo nr n').kids.filter offSlice = (dictInfo nr n).kids.filter offSlice
  | .mk i ks => fun n' h => by
    have hk := dictInfos_old ks
    have hkd : ∀ f, f ≠ .slice → (kidDicts (dictInfos nr n'.kids) f).filter offSlice = (kidDicts (dictInfos nr ks) f).filter offSlice := fun f hf => by
      have := kidDicts_map nr (.mk i ks) f
      rw [show Node.kids (.mk i ks) = ks from rfl] at this
      rw [kidDicts_map, this, h.field]
      cases hfk : (Node.mk i ks).field f with
      | none => rfl
      | some k => exact (hk k (List.mem_of_find?_eq_some hfk) _ (h.ofField hfk hf)).2
    refine ⟨?_, ?_⟩
    · rw [dictInfo_self, dictInfo_self]
      unfold isDictStep
      rw [h.kind, h.bindField .func (fun h => h.nameId), subscriptIndex_old h]
      have hlam : (lambdaKids n' (dictInfos nr n'.kids)).find? (fun k => decide (k.1 = .lamBody)) =
          (lambdaKids (.mk i ks) (dictInfos nr ks)).find? fun k => decide (k.1 = .lamBody) := by
        unfold lambdaKids
        have : ((n'.field .func).any fun f => decide (f.kind = .lambda)) = ((Node.mk i ks).field .func).any fun f => decide (f.kind = .lambda) := by
          rw [h.field]
          cases hfk : (Node.mk i ks).field .func with
          | none => rfl
          | some k => simp only [Option.map_some, Option.any_some, (h.ofField hfk (by decide)).kind]
        rw [this]
        split
        · have hp : ∀ x : Fld × Except Err Bool, decide (x.1 = .lamBody) = true → offSlice x = true := fun x hx => by
            unfold offSlice; rw [of_decide_eq_true hx]; rfl
          rw [← find_offSlice hp, ← find_offSlice hp (kidDicts (dictInfos nr ks) .func), hkd .func (by decide)]
        · rfl
      have hsub : (kidDicts (dictInfos nr n'.kids) .value).filter (fun k => decide (k.1 = .elts) || decide (k.1 = .values)) =
          (kidDicts (dictInfos nr ks) .value).filter fun k => decide (k.1 = .elts) || decide (k.1 = .values) := by
        have hp : ∀ x : Fld × Except Err Bool, (decide (x.1 = .elts) || decide (x.1 = .values)) = true → offSlice x = true := fun x hx => by
          unfold offSlice
          rcases Bool.or_eq_true _ _ ▸ hx with hx | hx <;> rw [of_decide_eq_true hx] <;> rfl
        rw [← filter_offSlice hp, ← filter_offSlice hp (kidDicts (dictInfos nr ks) .value), hkd .value (by decide)]
      rw [hlam, hsub]
      rfl
    · rw [dictInfo_fields, dictInfo_fields, h.kids, List.map_map, List.filter_map, List.filter_map]
      have hp : List.filter (offSlice ∘ (fun k => (k.fld, (dictInfo nr k).self)) ∘ modern) ks = List.filter (offSlice ∘ fun k => (k.fld, (dictInfo nr k).self)) ks :=
        List.filter_congr fun k _ => by simp only [Function.comp, offSlice, modern_fld]
      show List.map _ (List.filter (offSlice ∘ (fun k => (k.fld, (dictInfo nr k).self)) ∘ modern) ks) = _
      rw [hp]
      refine List.map_congr_left fun k hkm => ?_
      obtain ⟨h1, h2⟩ := List.mem_filter.mp hkm
      have hl := h.kid (k := k) h1 (of_decide_eq_true h2)
      simp only [Function.comp, modern_fld, (hk k h1 _ hl).1]
theorem dictInfos_old : (ks : List Node) → ∀ k ∈ ks, ∀ k', Looks k k' →
    (dictInfo nr k').self = (dictInfo nr k).self ∧ (dictInfo nr k').kids.filter offSlice = (dictInfo nr k).kids.filter offSlice
  | [] => nofun
  | k :: ks => fun x hx => by
    rcases List.mem_cons.mp hx with he | hx
    · rw [he]; exact dictInfo_old k
    · exact dictInfos_old ks x hx
end

theorem isDict_old (h : Looks n n') : isDict nr n' = isDict nr n := (dictInfo_old nr n n' h).1
theorem anyDict_old : ∀ l : List Node, (∀ k ∈ l, Looks k (modern k)) → anyDict nr (l.map modern) = anyDict nr l
  | [], _ => rfl
  | k :: l, h => by simp only [List.map_cons, anyDict, isDict_old nr (h k (by simp)), anyDict_old l fun x hx => h x (by simp [hx])]

/-! ### f-strings -/

/-- The walk over contributions ends here. -/
def Halts : Except Err FItem → Prop
  | .ok i => i.brk = true
  | .error _ => True

/-- The same contributions as far as a walk goes. -/
inductive Till : List (List (Except Err FItem)) → List (List (Except Err FItem)) → Prop
  | nil : Till [] []
  | stop {x l a b} : x ∈ l → Halts x → Till (l :: a) (l :: b)
  | cons {l a b} : Till a b → Till (l :: a) (l :: b)

theorem Till.refl : ∀ a, Till a a
  | [] => .nil
  | _ :: a => .cons (Till.refl a)
theorem Till.merge {a a' b b'} (h : Till a a') (g : Till b b') : Till (mergeLevels a b) (mergeLevels a' b') := by
  induction h generalizing b b' with
  | nil => simpa [mergeLevels] using g
  | stop hx he => cases g with
    | nil => exact .stop hx he
    | stop _ _ => exact .stop (List.mem_append_left _ hx) he
    | cons _ => exact .stop (List.mem_append_left _ hx) he
  | cons h ih => cases g with
    | nil => exact .cons h
    | stop hx he => exact .stop (List.mem_append_right _ hx) he
    | cons g => exact .cons (ih g)
theorem fWalk_stop {x : Except Err FItem} (he : Halts x) (a b : List (Except Err FItem)) : ∀ {l}, x ∈ l → fWalk (l ++ a) = fWalk (l ++ b)
  | [], h => nomatch h
  | .error _ :: _, _ => rfl
  | .ok i :: l, h => by
    rw [List.cons_append, List.cons_append, fWalk, fWalk]
    rcases List.mem_cons.mp h with rfl | h
    · have he : i.brk = true := he
      rw [if_pos he, if_pos he]
    · rw [fWalk_stop he a b h]
theorem fWalk_append {a b : List (Except Err FItem)} (h : fWalk a = fWalk b) : ∀ l, fWalk (l ++ a) = fWalk (l ++ b)
  | [] => h
  | .error _ :: _ => rfl
  | .ok i :: l => by rw [List.cons_append, List.cons_append, fWalk, fWalk, fWalk_append h l]
theorem Till.walk {a b} (h : Till a b) : fWalk a.flatten = fWalk b.flatten := by
  induction h with
  | nil => rfl
  | stop hx he => exact fWalk_stop he _ _ hx
  | cons _ ih => exact fWalk_append ih _

theorem fInfos_map : ∀ ks : List Node, fInfos ma ks = ks.map fun k => (k, fInfo ma k)
  | [] => rfl
  | k :: ks => by rw [fInfos, fInfos_map ks]; rfl
theorem fOne_map (n : Node) (f : Fld) : fOne (fInfos ma n.kids) f = match n.field f with
    | some k => (fInfo ma k).res
    | none => .error .attributeError := by
  unfold fOne Node.field
  rw [fInfos_map, List.find?_map]
  show (match Option.map (fun k => (k, fInfo ma k)) (List.find? (fun k => decide (k.fld = f)) n.kids) with | some k => k.2.res | none => .error .attributeError) = _
  cases List.find? (fun k => decide (k.fld = f)) n.kids <;> rfl
theorem fAll_map (n : Node) (f : Fld) : fAll (fInfos ma n.kids) f = (n.fields f).map fun k => (fInfo ma k).res := by
  unfold fAll Node.fields
  rw [fInfos_map, List.filter_map, List.map_map]
  rfl

theorem fItem_old (h : Looks n n') (hr : ∀ k ∈ n.kids, (fInfo ma (modern k)).res = (fInfo ma k).res) :
    fItem ma n' (fInfos ma n'.kids) = fItem ma n (fInfos ma n.kids) := by
  have h1 : ∀ f, fOne (fInfos ma n'.kids) f = fOne (fInfos ma n.kids) f := fun f => by
    rw [fOne_map, fOne_map, h.field]
    cases hk : n.field f with
    | none => rfl
    | some k => exact hr k (List.mem_of_find?_eq_some hk)
  have h2 : ∀ f, fAll (fInfos ma n'.kids) f = fAll (fInfos ma n.kids) f := fun f => by
    rw [fAll_map, fAll_map, h.fields, List.map_map]
    exact List.map_congr_left fun k hk => hr k (List.mem_filter.mp hk).1
  have h3 : ∀ f, (n'.fields f).isEmpty = (n.fields f).isEmpty := fun f => by rw [h.fields, List.isEmpty_map]
  unfold fItem
  simp only [h1, h2, h3]
  rw [h.kind]
  split
  case h_6 a ha => rw [attributeName_old ma h (h.old.self.attrs a ha)]
  all_goals rfl

theorem fItem_subscript {n : Node} (h : n.kind = .subscript) (ks : List (Node × FInfo)) : Halts (fItem ma n ks) := by
  unfold fItem
  rw [h]
  dsimp only
  cases fOne ks .value with
  | error => trivial
  | ok v => cases fOne ks .slice with
    | error => trivial
    | ok s => rfl

theorem fInfo_index {n w : Node} (h : n.kind = .index) (hw : n.field .value = some w) : (fInfo ma n).res = (fInfo ma w).res := by
  have h1 := fOne_map ma n .value
  rw [hw] at h1
  obtain ⟨i, ks⟩ := n
  rw [fInfo]
  have h1 : fOne (fInfos ma ks) .value = (fInfo ma w).res := h1
  have : fItem ma (.mk i ks) (fInfos ma ks) = (do let val ← (fInfo ma w).res; return .last val) := by
    unfold fItem
    rw [h, ← h1]
  simp only [this, List.flatten_cons, List.singleton_append]
  cases (fInfo ma w).res with
  | error e => rfl
  | ok v =>
    show Except.ok (strJoin "." [v]) = _
    simp [strJoin, join]

mutual
theorem fInfo_old : (n : Node) → (∀ n', Looks n n' → (fInfo ma n').res = (fInfo ma n).res ∧ Till (fInfo ma n').levels (fInfo ma n).levels) ∧
    (Old n → (fInfo ma (modern n)).res = (fInfo ma n).res)
  | .mk i ks => by
    have hk := fInfos_old ks
    have H : ∀ n', Looks (.mk i ks) n' → (fInfo ma n').res = (fInfo ma (.mk i ks)).res ∧ Till (fInfo ma n').levels (fInfo ma (.mk i ks)).levels := fun n' h => by
      have hT : Till (fInfo ma n').levels (fInfo ma (.mk i ks)).levels := by
        have hi := fItem_old ma h fun k hkk => (hk k hkk).2 (h.old.kid hkk)
        have hks := h.kids
        obtain ⟨i', ks'⟩ := n'
        rw [fInfo, fInfo]
        change fItem ma _ (fInfos ma ks') = fItem ma _ (fInfos ma ks) at hi
        change ks' = ks.map modern at hks
        dsimp only
        rw [hi]
        by_cases hs : i.kind = .subscript
        · exact .stop (List.mem_singleton_self _) (fItem_subscript ma (n := .mk i ks) hs _)
        · refine .cons ?_
          rw [hks]
          exact fLevels_old ks hk fun k hkk => h.kidOf hs hkk
      refine ⟨?_, hT⟩
      have := hT.walk
      obtain ⟨i', ks'⟩ := n'
      rw [fInfo, fInfo] at this ⊢
      exact congrArg fResult this
    refine ⟨H, fun ho => ?_⟩
    by_cases hi : i.kind = .index
    · obtain ⟨w, hw, hwi, _, how, hm⟩ := index_value ho hi
      rw [hm, fInfo_index ma (n := .mk i ks) hi hw]
      exact ((hk w (List.mem_of_find?_eq_some hw)).1 _ ((looks_modern how hwi).put _)).1
    · exact (H _ (looks_modern ho hi)).1
theorem fInfos_old : (ks : List Node) → ∀ k ∈ ks, (∀ k', Looks k k' → (fInfo ma k').res = (fInfo ma k).res ∧ Till (fInfo ma k').levels (fInfo ma k).levels) ∧
    (Old k → (fInfo ma (modern k)).res = (fInfo ma k).res)
  | [] => nofun
  | k :: ks => fun x hx => by
    rcases List.mem_cons.mp hx with he | hx
    · rw [he]; exact fInfo_old k
    · exact fInfos_old ks x hx
theorem fLevels_old : (ks : List Node) → (∀ k ∈ ks, (∀ k', Looks k k' → (fInfo ma k').res = (fInfo ma k).res ∧ Till (fInfo ma k').levels (fInfo ma k).levels) ∧
    (Old k → (fInfo ma (modern k)).res = (fInfo ma k).res)) → (∀ k ∈ ks, Looks k (modern k)) →
    Till (fLevels (fInfos ma (ks.map modern))) (fLevels (fInfos ma ks))
  | [], _, _ => .nil
  | k :: ks, hk, hl => by
    rw [List.map_cons, fInfos, fInfos, fLevels, fLevels]
    exact ((hk k (by simp)).1 _ (hl k (by simp))).2.merge (fLevels_old ks (fun x hx => hk x (by simp [hx])) fun x hx => hl x (by simp [hx]))
end

theorem extractFstring_old (h : Old n) : extractFstring ma (modern n) = extractFstring ma n := (fInfo_old ma n).2 h

end Vermin
