import Verif.Model.Minimum
import Verif.Spec.Renamed
/-
Programs that differ in the names they choose only: two visits with names that mean the same to the visitor.
-/
namespace Vermin
open Py V Spec

/-- A renaming that the visitor does not notice; `o` is the order of sets in the renamed program. -/
structure Neutral (env : Env) (o : List String → List String) (ρ : String → String) : Prop where
  inj : ∀ {x y}, ρ x = ρ y → x = y
  nil : ρ "" = ""
  dot : ∀ a b, ρ (a ++ "." ++ b) = ρ a ++ "." ++ ρ b
  split : ∀ x, splitDots (ρ x) = (splitDots x).map ρ
  word : ∀ w ∈ visitorWords, ρ w = w
  mod : ∀ x r, env.tables.mod x = some r → ρ x = x
  mem : ∀ x r, env.tables.mem x = some r → ρ x = x
  deco : ∀ x r, env.tables.deco x = some r → ρ x = x
  kw : ∀ f k r, env.tables.kw (f, k) = some r → ρ f = f ∧ k.map ρ = k
  errors : ∀ x r, env.tables.errorsIndex x = some r → ρ x = x
  encodings : ∀ x r, env.tables.encodingsIndices x = some r → ρ x = x
  generic : ∀ x ∈ env.tables.genericTypes, ρ x = x
  union : ∀ x ∈ env.tables.dictUnion, ρ x = x
  merge : ∀ x ∈ env.tables.dictUnionMerge, ρ x = x
  excluded : ∀ x, env.cfg.isExcluded (ρ x) = env.cfg.isExcluded x
  excludedKw : ∀ f k, env.cfg.isExcludedKwarg (ρ f) (kwText (k.map ρ)) = env.cfg.isExcludedKwarg f (kwText k)
  order : ∀ l, o (l.map ρ) = (env.order l).map ρ

/-! ### Tables and dictionaries -/

section
variable {ρ : String → String}

/-- A dictionary under other names. -/
def relabel {β : Type} (ρ : String → String) (f : β → β) (d : Dict String β) : Dict String β := d.map fun e => (ρ e.1, f e.2)

theorem get?_relabel {β : Type} (hi : ∀ {x y}, ρ x = ρ y → x = y) (f : β → β) (d : Dict String β) (x : String) :
    Dict.get? (relabel ρ f d) (ρ x) = (Dict.get? d x).map f := by
  unfold Dict.get? relabel
  rw [List.find?_map, Option.map_map, Option.map_map]
  have : ((fun e : String × β => decide (e.1 = ρ x)) ∘ fun e : String × β => (ρ e.1, f e.2)) = fun e => decide (e.1 = x) := by
    funext e
    exact decide_eq_decide.mpr ⟨fun h => hi h, fun h => h ▸ rfl⟩
  rw [this]
  rfl
theorem set_relabel {β : Type} (hi : ∀ {x y}, ρ x = ρ y → x = y) (f : β → β) (d : Dict String β) (x : String) (v : β) :
    Dict.set (relabel ρ f d) (ρ x) (f v) = relabel ρ f (Dict.set d x v) := by
  unfold Dict.set relabel
  rw [List.filter_map, List.map_cons]
  congr 2
  refine List.filter_congr fun e _ => ?_
  show (!decide (ρ e.1 = ρ x)) = _
  congr 1
  exact decide_eq_decide.mpr ⟨fun h => hi h, fun h => h ▸ rfl⟩
theorem has_relabel {β : Type} (hi : ∀ {x y}, ρ x = ρ y → x = y) (f : β → β) (d : Dict String β) (x : String) :
    Dict.has (relabel ρ f d) (ρ x) = Dict.has d x := by
  unfold Dict.has
  rw [get?_relabel hi, Option.isSome_map]
theorem contains_renamed (hi : ∀ {x y}, ρ x = ρ y → x = y) (l : List String) (x : String) : (l.map ρ).contains (ρ x) = l.contains x := by
  rw [Bool.eq_iff_iff]
  simp only [List.contains_iff_mem, List.mem_map]
  exact ⟨fun ⟨y, hy, h⟩ => hi h ▸ hy, fun h => ⟨_, h, rfl⟩⟩
/-- A list of names that keep their name. -/
theorem contains_kept (hi : ∀ {x y}, ρ x = ρ y → x = y) {l : List String} (hl : ∀ x ∈ l, ρ x = x) (x : String) : l.contains (ρ x) = l.contains x := by
  have := contains_renamed hi l x
  rwa [show l.map ρ = l by rw [List.map_congr_left hl, List.map_id']] at this
theorem addSet_renamed (hi : ∀ {x y}, ρ x = ρ y → x = y) (l : List String) (x : String) : addSet (l.map ρ) (ρ x) = (addSet l x).map ρ := by
  unfold addSet
  rw [contains_renamed hi]
  split <;> simp
/-- A table of names that keep their name. -/
theorem table_renamed {β : Type} (hi : ∀ {x y}, ρ x = ρ y → x = y) {t : String → Option β} (ht : ∀ x r, t x = some r → ρ x = x) (x : String) :
    t (ρ x) = t x := by
  cases h : t x with
  | some r => rw [ht x r h, h]
  | none =>
    cases h' : t (ρ x) with
    | none => rfl
    | some r =>
      rw [hi (ht _ r h'), h] at h'
      cases h'
end

/-! ### Nodes -/

section
variable {ρ : String → String}
theorem renamedAll_map (ks : List Node) : renamedAll ρ ks = ks.map (Node.renamed ρ) := by
  induction ks with
  | nil => rfl
  | cons k ks ih => simp [renamedAll, ih]

namespace Node
variable (n : Node)
theorem renamed_kids : (n.renamed ρ).kids = n.kids.map (renamed ρ) := by cases n; exact renamedAll_map _
theorem renamed_kind : (n.renamed ρ).kind = n.kind.renamed ρ := by cases n; rfl
theorem renamed_fld : (n.renamed ρ).fld = n.fld := by cases n; rfl
theorem renamed_uid : (n.renamed ρ).info.uid = n.info.uid := by cases n; rfl
theorem renamed_line : (n.renamed ρ).line = n.line := by cases n; rfl
theorem renamed_infoLine : (n.renamed ρ).info.line = n.info.line := by cases n; rfl
theorem renamed_col : (n.renamed ρ).col = n.col := by cases n; rfl
theorem renamed_filter (p : Node → Bool) (hp : ∀ k : Node, p (k.renamed ρ) = p k) :
    (n.renamed ρ).kids.filter p = (n.kids.filter p).map (renamed ρ) := by
  rw [renamed_kids, List.filter_map]
  congr 1
  exact List.filter_congr fun k _ => hp k
theorem renamed_fields (f : Fld) : (n.renamed ρ).fields f = (n.fields f).map (renamed ρ) :=
  renamed_filter n _ fun k => by simp only [renamed_fld]
theorem renamed_field (f : Fld) : (n.renamed ρ).field f = (n.field f).map (renamed ρ) := by
  unfold field
  rw [renamed_kids, List.find?_map]
  congr 1
  congr 1
  funext k
  simp only [Function.comp, renamed_fld]
theorem renamed_nameId : (n.renamed ρ).nameId = n.nameId.map ρ := by unfold nameId; rw [renamed_kind]; cases n.kind <;> rfl
theorem renamed_constVal : (n.renamed ρ).constVal = n.constVal := by unfold constVal; rw [renamed_kind]; cases n.kind <;> rfl
theorem renamed_strVal : (n.renamed ρ).strVal = n.strVal := by unfold strVal; rw [renamed_kind]; cases n.kind <;> rfl
theorem renamed_opOf : (n.renamed ρ).opOf = n.opOf := by unfold opOf; rw [renamed_kind]; cases n.kind <;> rfl
theorem renamed_is (k : Kind) (hk : ∀ x : Kind, x.renamed ρ = k ↔ x = k) : decide ((n.renamed ρ).kind = k) = decide (n.kind = k) := by
  rw [renamed_kind]
  exact decide_eq_decide.mpr (hk _)
theorem renamed_isCall : (n.renamed ρ).isCall = n.isCall := renamed_is n _ fun x => by cases x <;> simp [Kind.renamed]
/-- A property of the node in a field. -/
theorem renamed_bind {α : Type} (x : Option Node) (p : Node → Option α) (hp : ∀ k : Node, p (k.renamed ρ) = p k) : (x.map (renamed ρ)).bind p = x.bind p := by
  cases x with
  | none => rfl
  | some k => exact hp k
theorem renamed_bindName (x : Option Node) : (x.map (renamed ρ)).bind nameId = (x.bind nameId).map ρ := by
  cases x with
  | none => rfl
  | some k => exact renamed_nameId k
end Node
open Node

theorem pushLevels {α β : Type} (f : α → β) (xs ys : List (List α)) :
    mergeLevels (xs.map (List.map f)) (ys.map (List.map f)) = (mergeLevels xs ys).map (List.map f) := by
  fun_induction mergeLevels xs ys with
  | case1 ys => simp [mergeLevels]
  | case2 xs h => cases xs <;> simp [mergeLevels]
  | case3 x xs y ys ih => simp [mergeLevels, ih]

mutual
theorem levels_renamed (stop : Node → Bool) (hs : ∀ k : Node, stop (k.renamed ρ) = stop k) :
    (n : Node) → levels stop (n.renamed ρ) = (levels stop n).map (List.map (Node.renamed ρ))
  | .mk i ks => by
    have h := hs (.mk i ks)
    simp only [Node.renamed] at h ⊢
    simp only [levels, h]
    split
    · rfl
    · simp only [List.map_cons, List.map_nil, levelsList_renamed stop hs ks, Node.renamed]
theorem levelsList_renamed (stop : Node → Bool) (hs : ∀ k : Node, stop (k.renamed ρ) = stop k) :
    (ks : List Node) → levelsList stop (renamedAll ρ ks) = (levelsList stop ks).map (List.map (Node.renamed ρ))
  | [] => rfl
  | k :: ks => by
    simp only [renamedAll, levelsList, levels_renamed stop hs k, levelsList_renamed stop hs ks, pushLevels]
end

theorem walk_renamed (n : Node) : walk (n.renamed ρ) = (walk n).map (Node.renamed ρ) := by
  unfold walk
  rw [levels_renamed _ (fun _ => rfl), List.map_flatten]
theorem assignTargetWalk_renamed (n : Node) : assignTargetWalk (n.renamed ρ) = (assignTargetWalk n).map (Node.renamed ρ) := by
  unfold assignTargetWalk
  rw [levels_renamed _ (fun k => by unfold isSubOrAttr; rw [renamed_kind]; cases k.kind <;> rfl), List.map_flatten]

section
variable (n : Node)
theorem intConst_renamed : intConst (n.renamed ρ) = intConst n := by unfold intConst; rw [renamed_kind]; cases n.kind <;> rfl
theorem unaryOp_renamed : decide ((n.renamed ρ).kind = .unaryOp) = decide (n.kind = .unaryOp) := renamed_is n _ fun x => by cases x <;> simp [Kind.renamed]
theorem isIntNode_renamed : isIntNode (n.renamed ρ) = isIntNode n := by
  simp only [isIntNode, intConst_renamed, unaryOp_renamed, renamed_field, renamed_bind _ _ intConst_renamed]
theorem isNegIntNode_renamed : isNegIntNode (n.renamed ρ) = isNegIntNode n := by
  simp only [isNegIntNode, intConst_renamed, unaryOp_renamed, renamed_field, renamed_bind _ _ intConst_renamed, renamed_bind _ _ renamed_opOf]
theorem isEllipsisNode_renamed : isEllipsisNode (n.renamed ρ) = isEllipsisNode n := renamed_is n _ fun x => by cases x <;> simp [Kind.renamed]
theorem isValidStarUnpack_renamed : isValidStarUnpack (n.renamed ρ) = isValidStarUnpack n := renamed_is n _ fun x => by cases x <;> simp [Kind.renamed]
theorem kwArg_renamed : kwArg (n.renamed ρ) = (kwArg n).map ρ := by unfold kwArg; rw [renamed_kind]; cases n.kind <;> rfl
theorem kwConst_renamed : kwConst (n.renamed ρ) = kwConst n := by simp only [kwConst, renamed_field, renamed_bind _ _ renamed_constVal]
theorem argName_renamed : argName (n.renamed ρ) = (argName n).map ρ := by unfold argName; rw [renamed_kind]; cases n.kind <;> rfl
theorem isBytes_renamed : isBytes (n.renamed ρ) = isBytes n := by unfold isBytes; rw [renamed_kind]; cases n.kind <;> rfl
theorem isNameOrAttr_renamed : isNameOrAttr (n.renamed ρ) = isNameOrAttr n := by unfold isNameOrAttr; rw [renamed_kind]; cases n.kind <;> rfl
theorem operator_renamed : operator (n.renamed ρ) = operator n := by simp only [operator, renamed_field, renamed_bind _ _ renamed_opOf]
theorem isFormat27_renamed : isFormat27 (n.renamed ρ) = isFormat27 n := by
  simp only [isFormat27, renamed_field, renamed_bind _ _ renamed_strVal]
theorem decoRoot_renamed : decoRoot (n.renamed ρ) = (decoRoot n).renamed ρ := by
  unfold decoRoot
  rw [renamed_kind, renamed_field]
  cases n.kind <;> first | rfl | (cases n.field .func <;> rfl)
theorem eltsOf_renamed : eltsOf (n.renamed ρ) = (eltsOf n).map (Node.renamed ρ) := renamed_filter n _ fun k => by simp only [renamed_fld]
theorem paramsOf_renamed : paramsOf (n.renamed ρ) = (paramsOf n).map (Node.renamed ρ) := by
  unfold paramsOf
  rw [renamed_field]
  cases n.field .args with
  | none => rfl
  | some a => exact renamed_fields a _
theorem positions_renamed (p : Node → Bool) (hp : ∀ k : Node, p (k.renamed ρ) = p k) (l : List Node) :
    ∀ i, positions p i (l.map (Node.renamed ρ)) = positions p i l := by
  induction l with
  | nil => intro i; rfl
  | cons k l ih => intro i; simp only [List.map_cons, positions, hp, ih]
theorem any_renamed (p : Node → Bool) (hp : ∀ k : Node, p (k.renamed ρ) = p k) (l : List Node) : (l.map (Node.renamed ρ)).any p = l.any p := by
  rw [List.any_map]
  congr 1
  funext k
  exact hp k
theorem callUnpacks_renamed : callUnpacks (n.renamed ρ) = callUnpacks n := by
  unfold callUnpacks
  rw [renamed_fields, renamed_fields, positions_renamed _ isValidStarUnpack_renamed, positions_renamed _ (fun k => by simp only [kwArg_renamed, Option.isNone_map]),
    List.length_map, List.length_map]
theorem unpacks_renamed : unpacks (n.renamed ρ) = unpacks n := by
  simp only [unpacks, callUnpacks_renamed, renamed_kind, renamed_fields, any_renamed _ isValidStarUnpack_renamed]
  cases n.kind <;> rfl
theorem isInversePow_renamed : isInversePow (n.renamed ρ) = isInversePow n := by
  unfold isInversePow
  rw [renamed_fields]
  generalize n.fields .args = l
  match l with
  | [] => rfl
  | [_] => rfl
  | [_, _] => rfl
  | [a, b, c] => simp only [List.map_cons, List.map_nil, isIntNode_renamed, isNegIntNode_renamed]
  | _ :: _ :: _ :: _ :: _ => rfl
theorem subscriptIndex_renamed : subscriptIndex (n.renamed ρ) = subscriptIndex n := by
  simp only [subscriptIndex, renamed_field]
  cases n.field .slice with
  | none => rfl
  | some s =>
    have : ((s.renamed ρ).kind = .index) = (s.kind = .index) := by
      rw [renamed_kind, eq_iff_iff]
      cases s.kind <;> simp [Kind.renamed]
    simp only [Option.map_some, this, renamed_field, renamed_bind _ _ renamed_constVal, renamed_constVal]
end
end

/-! ### Names -/

/-- Names under other names. -/
def renames (ρ : String → String) (l : List (Option String)) : List (Option String) := l.map (Option.map ρ)

/-- An outcome under other names. -/
def outcome {α β : Type} (f : α → β) : Except Err α → Except Err β
  | .ok a => .ok (f a)
  | .error e => .error e

open Node
namespace Neutral
variable {env : Env} {o : List String → List String} {ρ : String → String} (hρ : Neutral env o ρ)
include hρ

theorem is {w : String} (hw : w ∈ visitorWords) (x : String) : ρ x = w ↔ x = w :=
  ⟨fun h => hρ.inj (h.trans (hρ.word w hw).symm), fun h => h ▸ hρ.word x (h ▸ hw)⟩
theorem isSome {w : String} (hw : w ∈ visitorWords) (x : Option String) : x.map ρ = some w ↔ x = some w := by
  cases x with
  | none => simp
  | some x => simp [hρ.is hw x]
theorem isSomeSome {w : String} (hw : w ∈ visitorWords) (x : Option (Option String)) : x.map (Option.map ρ) = some (some w) ↔ x = some (some w) := by
  cases x with
  | none => simp
  | some x => simp [hρ.isSome hw x]
theorem words {l : List String} (hl : ∀ w ∈ l, w ∈ visitorWords) (x : String) : l.contains (ρ x) = l.contains x :=
  contains_kept hρ.inj (fun w hw => hρ.word w (hl w hw)) x

theorem join (l : List String) : ρ (String.ofList (Py.join ['.'] (l.map String.toList))) = String.ofList (Py.join ['.'] ((l.map ρ).map String.toList)) := by
  induction l with
  | nil => exact hρ.nil
  | cons x l ih =>
  cases l with
  | nil => simp [Py.join]
  | cons y l =>
    have h : ∀ (x : String) (t : List Char), String.ofList (x.toList ++ ['.'] ++ t) = x ++ "." ++ String.ofList t := fun x t => by
      apply String.ext
      simp
    simp only [List.map_cons, Py.join] at ih ⊢
    rw [h, h, hρ.dot, ih]
theorem dotted (l : List (Option String)) : dotted (renames ρ l) = ρ (Vermin.dotted l) := by
  have h : ∀ l : List (Option String), (l.filterMap fun o => o.map String.toList) = (l.filterMap id).map String.toList := fun l => by
    induction l with
    | nil => rfl
    | cons x l ih => cases x <;> simp [ih]
  have h2 : (renames ρ l).filterMap id = (l.filterMap id).map ρ := by
    unfold renames
    induction l with
    | nil => rfl
    | cons x l ih => cases x <;> simp [ih]
  unfold Vermin.dotted
  rw [h, h, hρ.join, h2]

theorem isNone (n : Node) : isNoneNode (n.renamed ρ) = isNoneNode n := by
  unfold isNoneNode
  rw [renamed_kind]
  cases n.kind <;> first | rfl | exact decide_eq_decide.mpr (hρ.is (by decide) _)
theorem isEncodingKw (n : Node) : isEncodingKw (n.renamed ρ) = Vermin.isEncodingKw n := by
  unfold Vermin.isEncodingKw
  rw [kwArg_renamed]
  cases kwArg n with
  | none => rfl
  | some a => exact hρ.words (by decide) a
theorem isBytearrayCall (n : Node) : isBytearrayCall (n.renamed ρ) = Vermin.isBytearrayCall n := by
  simp only [Vermin.isBytearrayCall, renamed_isCall, renamed_field, renamed_bindName, hρ.isSome (w := "bytearray") (by decide)]
theorem isAnn {w : String} (hw : w ∈ visitorWords) (n : Node) : isAnn (n.renamed ρ) w = Vermin.isAnn n w := by
  have : decide ((n.renamed ρ).kind = .subscript) = decide (n.kind = .subscript) := renamed_is n _ fun x => by cases x <;> simp [Kind.renamed]
  simp only [Vermin.isAnn, renamed_nameId, hρ.isSome hw, this, renamed_field, renamed_bindName]
theorem headBuiltin (l : List (Option String)) : headBuiltin (renames ρ l) = Vermin.headBuiltin l := by
  match l with
  | [] => rfl
  | none :: _ => rfl
  | some f :: _ => exact hρ.words (by decide) f
theorem freshEnds (l : List (Option String)) {w : String} (hw : w ∈ visitorWords) : freshEnds (renames ρ l) w = Vermin.freshEnds l w := by
  simp only [Vermin.freshEnds, renames, List.isEmpty_map, List.head?_map, List.getLast?_map, ne_eq, hρ.isSomeSome hw]
theorem freshOne (l : List (Option String)) {w : String} (hw : w ∈ visitorWords) : freshOne (renames ρ l) w = Vermin.freshOne l w := by
  simp only [Vermin.freshOne, renames, List.isEmpty_map, List.head?_map, List.length_map, ne_eq, hρ.isSomeSome hw]
theorem added (l : List (Option String)) {w : String} (hw : w ∈ visitorWords) : renames ρ l ++ [some w] = renames ρ (l ++ [some w]) := by
  simp [renames, hρ.word w hw]
theorem resolveModule (ma : Dict String String) (x : String) : resolveModuleName (relabel ρ ρ ma) (ρ x) = ρ (resolveModuleName ma x) := by
  unfold resolveModuleName
  rw [get?_relabel hρ.inj]
  cases Dict.get? ma x <;> rfl
theorem attrNames (ma : Dict String String) (n : Node) (a : String) :
    attrNames (relabel ρ ρ ma) (n.renamed ρ) (ρ a) = renames ρ (Vermin.attrNames ma n a) := by
  simp only [Vermin.attrNames, renamed_field, renamed_bindName]
  cases (n.field .value).bind nameId with
  | none => rfl
  | some x => simp [renames, hρ.resolveModule]
omit hρ in
theorem callNames (n : Node) : callNames (n.renamed ρ) = renames ρ (Vermin.callNames n) := by
  simp only [Vermin.callNames, renamed_field, renamed_bindName]
  cases (n.field .func).bind nameId <;> rfl
omit hρ in
theorem _root_.Vermin.renames_append (a b : List (Option String)) : renames ρ a ++ renames ρ b = renames ρ (a ++ b) := by simp [renames]
omit hρ in
theorem _root_.Vermin.renames_ite (c : Bool) (a b : List (Option String)) : (if c then renames ρ a else renames ρ b) = renames ρ (if c then a else b) := by
  cases c <;> rfl
theorem attrConst (l : List (Option String)) (c : Const) : attrConst (renames ρ l) c = outcome (renames ρ) (Vermin.attrConst l c) := by
  cases c with
  | complex t =>
    match l with
    | [] => rfl
    | f :: fs =>
      show Except.ok (if decide (f.map ρ ≠ none) && (renames ρ fs).isEmpty then renames ρ (f :: fs) ++ [none] else renames ρ (f :: fs)) = Except.ok _
      rw [show renames ρ (f :: fs) ++ [none] = renames ρ (f :: fs ++ [none]) by simp [renames], renames_ite]
      congr 2
      cases f <;> simp [renames]
  | str t => simp only [Vermin.attrConst, hρ.freshOne l (w := "str") (by decide), hρ.added l (w := "str") (by decide), renames_ite, outcome]
  | int t => simp only [Vermin.attrConst, hρ.freshOne l (w := "int") (by decide), hρ.added l (w := "int") (by decide), renames_ite, outcome]
  | float t => simp only [Vermin.attrConst, hρ.freshOne l (w := "float") (by decide), hρ.added l (w := "float") (by decide), renames_ite, outcome]
  | bytes t => simp only [Vermin.attrConst, hρ.freshOne l (w := "bytes") (by decide), hρ.added l (w := "bytes") (by decide), renames_ite, outcome]
  | _ => rfl
theorem attrStep (ma : Dict String String) (l : List (Option String)) (p : Bool) (n : Node) :
    attrStep (relabel ρ ρ ma) (renames ρ l) p (n.renamed ρ) = outcome (renames ρ) (Vermin.attrStep ma l p n) := by
  unfold Vermin.attrStep
  rw [renamed_kind]
  cases n.kind with
  | «attribute» a => simp only [Kind.renamed, hρ.attrNames, renames_append, outcome]
  | call => simp only [Kind.renamed, callNames, renames_append, outcome]
  | dict _ => simp only [Kind.renamed, hρ.freshEnds l (w := "dict") (by decide), hρ.added l (w := "dict") (by decide), renames_ite, outcome]
  | set => simp only [Kind.renamed, hρ.freshEnds l (w := "set") (by decide), hρ.added l (w := "set") (by decide), renames_ite, outcome]
  | list _ => simp only [Kind.renamed, hρ.freshEnds l (w := "list") (by decide), hρ.added l (w := "list") (by decide), renames_ite, outcome]
  | const c =>
    simp only [Kind.renamed]
    cases p with
    | true => rfl
    | false => exact hρ.attrConst l c
  | _ => rfl
theorem attrLoop (ma : Dict String String) (ns : List Node) : ∀ l p,
    attrLoop (relabel ρ ρ ma) (renames ρ l) p (ns.map (renamed ρ)) = outcome (renames ρ) (Vermin.attrLoop ma l p ns) := by
  induction ns with
  | nil => intro l p; rfl
  | cons n ns ih =>
    intro l p
    simp only [List.map_cons, Vermin.attrLoop, hρ.headBuiltin, hρ.attrStep]
    cases Vermin.attrStep ma l (p || Vermin.headBuiltin l) n with
    | error e => rfl
    | ok l' => exact ih l' _
theorem attributeName (ma : Dict String String) (n : Node) : attributeName (relabel ρ ρ ma) (n.renamed ρ) = outcome (renames ρ) (Vermin.attributeName ma n) := by
  have := hρ.attrLoop ma (walk n) [] false
  unfold Vermin.attributeName
  rw [walk_renamed, show Vermin.attrLoop (relabel ρ ρ ma) [] false ((walk n).map (renamed ρ)) = _ from this]
  cases Vermin.attrLoop ma [] false (walk n) with
  | error e => rfl
  | ok l => simp [outcome, renames]
theorem dottedAttr (ma : Dict String String) (n : Node) : dottedAttr (relabel ρ ρ ma) (n.renamed ρ) = outcome ρ (Vermin.dottedAttr ma n) := by
  unfold Vermin.dottedAttr
  rw [hρ.attributeName]
  cases Vermin.attributeName ma n with
  | error e => rfl
  | ok l => simp only [outcome, hρ.dotted]
theorem plainName (ma : Dict String String) (n : Node) : plainName (relabel ρ ρ ma) (n.renamed ρ) = outcome (Option.map ρ) (Vermin.plainName ma n) := by
  unfold Vermin.plainName
  rw [renamed_kind]
  cases n.kind with
  | name id c => rfl
  | call => simp only [Kind.renamed, renamed_field, renamed_bindName, outcome]
  | «attribute» a =>
    simp only [Kind.renamed, hρ.dottedAttr]
    cases Vermin.dottedAttr ma n <;> rfl
  | _ => rfl

/-! Dictionaries. -/

/-- Results paired with renamed nodes. -/
def _root_.Vermin.renamedPairs {α : Type} (ρ : String → String) (l : List (Node × α)) : List (Node × α) := l.map fun k => (k.1.renamed ρ, k.2)
omit hρ in
theorem kidDicts (ks : List (Node × DictInfo)) (f : Fld) : kidDicts (renamedPairs ρ ks) f = Vermin.kidDicts ks f := by
  simp only [Vermin.kidDicts, renamedPairs]
  rw [List.find?_map, show ((fun k : Node × DictInfo => decide (k.1.fld = f)) ∘ fun k : Node × DictInfo => (k.1.renamed ρ, k.2)) = fun k => decide (k.1.fld = f) by
    funext k; simp only [Function.comp, renamed_fld]]
  cases List.find? (fun k => decide (k.1.fld = f)) ks <;> rfl
omit hρ in
theorem lambdaKids (n : Node) (ks : List (Node × DictInfo)) : lambdaKids (n.renamed ρ) (renamedPairs ρ ks) = Vermin.lambdaKids n ks := by
  simp only [Vermin.lambdaKids, kidDicts, renamed_field, Option.any_map]
  congr 2
  congr 1
  funext k
  exact renamed_is k _ fun x => by cases x <;> simp [Kind.renamed]
theorem isDictStep (nr : Dict String String) (n : Node) (ks : List (Node × DictInfo)) :
    isDictStep (relabel ρ ρ nr) (n.renamed ρ) (renamedPairs ρ ks) = Vermin.isDictStep nr n ks := by
  simp only [Vermin.isDictStep, subscriptIndex_renamed, lambdaKids, kidDicts, renamed_field, renamed_bindName, hρ.isSome (w := "dict") (by decide), renamed_kind]
  cases n.kind with
  | name id c => simp only [Kind.renamed, get?_relabel hρ.inj, hρ.isSome (w := "dict") (by decide)]
  | _ => rfl
mutual
theorem dictInfo (nr : Dict String String) : (n : Node) → dictInfo (relabel ρ ρ nr) (n.renamed ρ) = Vermin.dictInfo nr n
  | .mk i ks => by
    have h := hρ.isDictStep nr (.mk i ks) (Vermin.dictInfos nr ks)
    simp only [Node.renamed] at h
    simp only [Node.renamed, Vermin.dictInfo, Neutral.dictInfos nr ks, h]
    congr 1
    simp only [renamedPairs, List.map_map]
    congr 1
    funext k
    simp only [Function.comp, renamed_fld]
theorem dictInfos (nr : Dict String String) : (ks : List Node) → dictInfos (relabel ρ ρ nr) (renamedAll ρ ks) = renamedPairs ρ (Vermin.dictInfos nr ks)
  | [] => rfl
  | k :: ks => by
    simp only [renamedAll, Vermin.dictInfos, Neutral.dictInfo nr k, Neutral.dictInfos nr ks]
    rfl
end
theorem isDict (nr : Dict String String) (n : Node) : isDict (relabel ρ ρ nr) (n.renamed ρ) = Vermin.isDict nr n := by simp only [Vermin.isDict, hρ.dictInfo]
theorem anyDict (nr : Dict String String) (l : List Node) : anyDict (relabel ρ ρ nr) (l.map (renamed ρ)) = Vermin.anyDict nr l := by
  induction l with
  | nil => rfl
  | cons k l ih => simp only [List.map_cons, Vermin.anyDict, hρ.isDict, ih]

/-! Assigned names. -/

/-- An assigned name under its other name. -/
def _root_.Vermin.AssignedName.renamed (ρ : String → String) : AssignedName → AssignedName
  | .value x => .value (ρ x)
  | .type x => .type (ρ x)
  | .nothing => .nothing
theorem assignedAttr (ma : Dict String String) (n : Node) :
    assignedAttr (relabel ρ ρ ma) (n.renamed ρ) = outcome (AssignedName.renamed ρ) (Vermin.assignedAttr ma n) := by
  unfold Vermin.assignedAttr
  rw [hρ.dottedAttr]
  cases Vermin.dottedAttr ma n <;> rfl
theorem assignedName (ma : Dict String String) (n : Node) :
    assignedName (relabel ρ ρ ma) (n.renamed ρ) = outcome (AssignedName.renamed ρ) (Vermin.assignedName ma n) := by
  unfold Vermin.assignedName
  rw [renamed_kind]
  cases n.kind with
  | call =>
    simp only [Kind.renamed, assignedCall, renamed_field]
    cases n.field .func with
    | none => rfl
    | some f =>
      simp only [Option.map_some, renamed_kind]
      cases f.kind with
      | «attribute» a => exact hρ.assignedAttr ma f
      | _ => rfl
  | «attribute» a => exact hρ.assignedAttr ma n
  | dict _ => simp only [Kind.renamed, outcome, AssignedName.renamed, hρ.word "dict" (by decide)]
  | set => simp only [Kind.renamed, outcome, AssignedName.renamed, hρ.word "set" (by decide)]
  | list _ => simp only [Kind.renamed, outcome, AssignedName.renamed, hρ.word "list" (by decide)]
  | const c =>
    cases c <;> simp only [Kind.renamed, assignedConst, outcome, AssignedName.renamed, hρ.word "str" (by decide), hρ.word "int" (by decide),
      hρ.word "float" (by decide), hρ.word "bytes" (by decide), hρ.word "None" (by decide)]
  | _ => rfl
end Neutral
end Vermin
