import Verif.Props.Relaxed
import Verif.Spec.Constructs
import Verif.Lemmas.OldVisits
/-
C92: trees of Python 3.8 and later ones.  Up to 3.8 an index is within `ast.Index`, and several of which one is a slice are within
`ast.ExtSlice`; from 3.9 on an index is there by itself, and several are an `ast.Tuple`.
-/
namespace Vermin.Props
open Py Spec

/-- `v[w]` in Python 3.8 -/
def oldItem (i j : Info) (v w : Node) : Node := .mk i [v, .mk j [w]]
/-- `v[w]` in Python 3.9 -/
def newItem (i : Info) (v w : Node) : Node := .mk i [v, putIn .slice w]

/-- The infos are those of a subscript, in Python 3.8. -/
structure OldItem (i j : Info) (v w : Node) : Prop where
  kind : i.kind = .subscript
  index : j.kind = .index
  slice : j.fld = .slice
  value : v.fld = .value
  within : w.fld = .value
  /-- there are no such nodes in an `ast.Index` -/
  plain : w.kind ≠ .index ∧ w.kind ≠ .extSlice

/-- The trees are of the same subscript. -/
theorem modern_oldItem {i j : Info} {v w : Node} (h : OldItem i j v w) (hv : modern v = v) (hw : modern w = w) :
    modern (oldItem i j v w) = newItem i v w := by
  unfold oldItem newItem
  simp only [modern, modernAll, hv, hw, h.kind, h.index, h.slice]

/-- **C92 (partial).** An element of a display is taken for a dictionary in the tree of 3.8 iff it is in that of 3.9, unless the index is
`True` or `False`. -/
theorem C92_item_partial (values : Py.Dict String String) {i j : Info} {v w : Node} (h : OldItem i j v w)
    (hb : ∀ b, w.kind ≠ .const (.bool b)) : isDict values (oldItem i j v w) = isDict values (newItem i v w) := by
  have hs : subscriptIndex (oldItem i j v w) = subscriptIndex (newItem i v w) := by
    have h1 : (oldItem i j v w).field .slice = some (.mk j [w]) := by
      have hv : v.fld ≠ .slice := by rw [h.value]; decide
      have hj : (Node.mk j [w]).fld = .slice := h.slice
      simp [oldItem, Node.field, Node.kids, hv, hj]
    have h2 : (newItem i v w).field .slice = some (putIn .slice w) := by
      have hv : v.fld ≠ .slice := by rw [h.value]; decide
      simp [newItem, Node.field, Node.kids, hv, putIn_fld]
    have h3 : (Node.mk j [w]).kind = .index := h.index
    have h4 : (Node.mk j [w]).field .value = some w := by simp [Node.field, Node.kids, h.within]
    unfold subscriptIndex
    rw [h1, h2]
    dsimp only
    rw [if_pos h3, h4, putIn_kind, if_neg h.plain.1]
    simp only [Option.bind_some, Node.constVal, putIn_kind]
    cases hw : w.kind with
    | const c => cases c with
      | bool b => exact absurd hw (hb b)
      | _ => rfl
    | _ => rfl
  unfold isDict oldItem newItem
  simp only [dictInfo, isDictStep]
  have hk : ∀ ks, (Node.mk i ks).kind = .subscript := fun _ => h.kind
  rw [hk, hk]
  dsimp only
  rw [show subscriptIndex (Node.mk i [v, .mk j [w]]) = _ from hs]
  unfold newItem
  simp [dictInfos, kidDicts, h.value]

/-- **C92 (partial).** The same ellipses are in slices. -/
theorem C92_marks_partial {i j : Info} {v w : Node} (h : OldItem i j v w) : markSlice (.mk j [w]) = markSlice (putIn .slice w) := by
  have h3 : (Node.mk j [w]).kind = .index := h.index
  have h4 : (Node.mk j [w]).field .value = some w := by simp [Node.field, Node.kids, h.within]
  have h5 : markSlice (putIn .slice w) = markSubscript (putIn .slice w) := by
    unfold markSlice
    rw [putIn_kind]
    have := h.plain
    split <;> simp_all
  rw [h5]
  unfold markSlice
  rw [h3, h4]
  simp only [V.opt, markSubscript, markEllipsis, isEllipsisNode, putIn_kind, putIn_uid, Node.fields, putIn_kids]

/-- **C92 (partial).** A tree of Python 3.8 is toured as the one of 3.9: the same state results, or the same exception.  Missing are the trees
of the counterexamples below: with `ast.ExtSlice`, with `True` or `False` as an index, and with names that are made up from nodes whose order
is another.  (With `--dump` the nodes of `ast.Index` are printed.) -/
theorem C92_program_partial {env : Env} (hp : env.cfg.printVisits = false) {n : Node} (h : Old n) : tour env (modern n) = tour env n := tour_old hp h

/-- **C92 (partial).** Hence the same is required. -/
theorem C92_requirement_partial {cfg : Config} (hp : cfg.printVisits = false) {n : Node} (h : Old n) : requirement cfg (modern n) = requirement cfg n := by
  unfold requirement
  rw [C92_program_partial (env := exampleEnv cfg) hp h]

/-- `x[..., 1:2]` in Python 3.8 -/
def oldSlices : Node := prog [st 1 (nd .value .subscript 1 [nm .value "x" 1, nd .slice .extSlice 1 [
  nd .dims .index 1 [nd .value (.const .ellipsis) 1 []], nd .dims .slice 1 []]])]
/-- `[{}][False] | {}` in Python 3.8 -/
def oldFalse : Node := prog [st 1 (nd .value .binOp 1 [
  nd .left .subscript 1 [nd .value (.list .load) 1 [nd .elts (.dict []) 1 []], nd .slice .index 1 [nd .value (.const (.bool false)) 1 []]],
  nd .op (.op .bitOr) 1 [], nd .right (.dict []) 1 []])]

/-- Why C92 does not hold: the ellipsis of `x[..., 1:2]` is out of slices in Python 3.8, and `[{}][False]` is a dictionary from 3.9 on only. -/
theorem C92_false : requirement (Config.init 1) oldSlices = some ⟨none, some ⟨3, 0⟩⟩ ∧
    requirement (Config.init 1) (modern oldSlices) = some ⟨some ⟨0, 0⟩, some ⟨0, 0⟩⟩ := by decide +kernel
theorem C92_false_bool : requirement (Config.init 1) oldFalse = some ⟨some ⟨2, 3⟩, some ⟨3, 0⟩⟩ ∧
    requirement (Config.init 1) (modern oldFalse) = some ⟨none, some ⟨3, 9⟩⟩ := by decide +kernel

/-- `(a[0] + (b + c.d)).e` in Python 3.8 -/
def oldAttr : Node := nd .value (.attribute "e") 1 [nd .value .binOp 1 [
  nd .left .subscript 1 [nm .value "a" 1, nd .slice .index 1 [nd .value (.const (.int 0)) 1 []]],
  nd .op (.op .add) 1 [], nd .right .binOp 1 [nm .left "b" 1, nd .op (.op .add) 1 [], nd .right (.attribute "d") 1 [nm .value "c" 1]]]]

/-- The name of an attribute is made up from the nodes breadth first, so those under an `ast.Index` come later. -/
theorem C92_false_name : attributeName [] oldAttr = .ok [some "c", some "d", some "e"] ∧
    attributeName [] (modern oldAttr) = .ok [some "c", some "d", some "int", some "e"] := by decide +kernel

/-- Example: `[{}][0]`. -/
theorem C92_witness : OldItem ⟨.left, .subscript, some 1, 0, 0⟩ ⟨.slice, .index, none, 0, 0⟩
      (nd .value (.list .load) 1 [nd .elts (.dict []) 1 []]) (nd .value (.const (.int 0)) 1 []) ∧
    isDict [] (oldItem ⟨.left, .subscript, some 1, 0, 0⟩ ⟨.slice, .index, none, 0, 0⟩
      (nd .value (.list .load) 1 [nd .elts (.dict []) 1 []]) (nd .value (.const (.int 0)) 1 [])) = .ok true :=
  ⟨⟨rfl, rfl, rfl, rfl, rfl, by decide, by decide⟩, rfl⟩

/-- An `ast.Index` has no line. -/
def indexed (w : Node) : Node := .mk ⟨.slice, .index, none, 0, 0⟩ [w]

/-- `[{}][0] | {}` and `x[0].__file__` in Python 3.8 -/
def oldProgram : Node := prog [
  st 1 (nd .value .binOp 1 [nd .left .subscript 1 [nd .value (.list .load) 1 [nd .elts (.dict []) 1 []], indexed (nd .value (.const (.int 0)) 1 [])],
    nd .op (.op .bitOr) 1 [], nd .right (.dict []) 1 []]),
  st 2 (nd .value (.attribute "__file__") 2 [nd .value .subscript 2 [nm .value "x" 2, indexed (nd .value (.const (.int 0)) 2 [])]])]

theorem old_node {i : Info} {ks : List Node} (h : OldNode (.mk i ks)) (hk : ∀ k ∈ ks, Old k) : Old (.mk i ks) := fun m hm => by
  cases hm with
  | self => exact h
  | kid hx hm => exact hk _ hx m hm
theorem field_fld {n k : Node} {f : Fld} (h : n.field f = some k) : k.fld = f := by
  have := List.find?_some h
  exact of_decide_eq_true this
theorem old_attr {i : Info} {ks : List Node} {a : String} (h : i.kind = .attribute a) (hw : SameWalk (.mk i ks)) (hi : ∀ k ∈ ks, k.kind ≠ .index)
    (hp : ∀ k ∈ ks, k.fld ≠ .args) (hk : ∀ k ∈ ks, Old k) : Old (.mk i ks) :=
  old_node ⟨by simp [Node.kind, Node.info, h], by simp [Node.kind, Node.info, h], by simp [Node.kind, Node.info, h], by simp [Node.kind, Node.info, h],
    fun k hm hx => absurd hx (hi k hm), fun _ _ => hw, fun as hx => absurd (field_fld hx) (hp as (List.mem_of_find?_eq_some hx)),
    by simp [Node.kind, Node.info, h], by simp [Node.kind, Node.info, h]⟩ hk
/-- Other nodes than these. -/
theorem old_plain {i : Info} {ks : List Node} (h : i.kind ≠ .extSlice ∧ i.kind ≠ .index ∧ i.kind ≠ .raise) (ha : ∀ a, i.kind ≠ .attribute a)
    (he : ∀ x, i.kind ≠ .exceptHandler x) (hi : i.kind = .subscript ∨ ∀ k ∈ ks, k.kind ≠ .index) (hp : ∀ k ∈ ks, k.fld ≠ .args) (hk : ∀ k ∈ ks, Old k) :
    Old (.mk i ks) :=
  old_node ⟨h.1, fun x => absurd x h.2.1, fun x => absurd x h.2.1, fun x => absurd x h.2.1,
    fun k hm hx => hi.elim id fun hi => absurd hx (hi k hm), fun a x => absurd x (ha a),
    fun as hx => absurd (field_fld hx) (hp as (List.mem_of_find?_eq_some hx)), fun x => absurd x h.2.2, fun x hx => absurd hx (he x)⟩ hk

theorem old_indexed {i : Info} (hf : i.fld = .value) {c : Int} (hc : i.kind = .const (.int c)) : Old (indexed (.mk i [])) := by
  have hw : Old (.mk i []) := old_plain ⟨by simp [hc], by simp [hc], by simp [hc]⟩ (by simp [hc]) (by simp [hc]) (.inr nofun) nofun nofun
  refine old_node ⟨by simp [Node.kind, Node.info], fun _ => ⟨rfl, rfl⟩, fun _ => ⟨_, rfl, hf, by simp [Node.kind, Node.info, hc], by simp [Node.kind, Node.info, hc]⟩, ?_, ?_, ?_, ?_, ?_, ?_⟩ ?_
  · rintro _ m hm x
    cases hm with
    | self => simp [Node.kind, Node.info]
    | kid hx hm =>
      rw [List.mem_singleton.mp hx] at hm
      cases hm with
      | self => simp [Node.kind, Node.info, hc]
      | kid hx _ => exact nomatch hx
  · intro k hk; rw [List.mem_singleton.mp hk]; simp [Node.kind, Node.info, hc]
  · simp [Node.kind, Node.info]
  · intro as h
    have := field_fld h
    rw [List.mem_singleton.mp (List.mem_of_find?_eq_some h), show (Node.mk i []).fld = .value from hf] at this
    exact absurd this (by decide)
  · simp [Node.kind, Node.info]
  · simp [Node.kind, Node.info]
  · intro k hk; rw [List.mem_singleton.mp hk]; exact hw

/-- Example: a program of Python 3.8 that requires 3.9 for a union of dictionaries. -/
theorem C92_program_witness : Old oldProgram ∧ (walk (modern oldProgram)).length < (walk oldProgram).length ∧
    requirement (Config.init 1) oldProgram = some ⟨none, some ⟨3, 9⟩⟩ := by
  refine ⟨?_, by decide +kernel, by decide +kernel⟩
  unfold oldProgram prog st nm nd
  repeat' first
    | exact old_indexed rfl rfl
    | refine old_attr rfl rfl (by simp [Node.kind, Node.info]) (by simp [Node.fld, Node.info]) ?_
    | refine old_plain ⟨by decide, by decide, by decide⟩ (by simp) (by simp) (by simp [Node.kind, Node.info, indexed]) (by simp [Node.fld, Node.info, indexed]) ?_
    | refine List.forall_mem_cons.mpr ⟨?_, ?_⟩
    | exact List.forall_mem_nil _

end Vermin.Props
