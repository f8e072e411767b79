import Verif.Spec.Constructs
/-
What the visitor may know about names, and the findings it may make, in terms of the program it looks at.
-/
namespace Vermin.Spec
open Vermin

/-- The names of imports are due to imports of the program. -/
def RenamesFrom (env : Env) (p : Node) (s : S) : Prop :=
  ∀ x y, Py.Dict.get? s.moduleAs x = some y → ∃ n, In n p ∧ Emits env n (.rename x y)

/-- Modules of a program: those that are imported, those that names are imported from, such names, and attributes of modules. -/
inductive ModuleIn (env : Env) (p : Node) : String → Prop
  | import {n a : Node} {m : String} : In n p → n.kind = .import → a ∈ n.fields .names → AliasName a m → ModuleIn env p m
  | source {n : Node} {m : String} : In n p → n.kind = .importFrom (some m) 0 → ModuleIn env p m
  | name {n a : Node} {m y : String} : In n p → n.kind = .importFrom (some m) 0 → a ∈ n.fields .names → AliasName a y → y ≠ "*" →
      ModuleIn env p (m ++ "." ++ y)
  | attr {n : Node} {a : String} {s : S} {full : List (Option String)} {x : String} : In n p → n.kind = .attribute a → RenamesFrom env p s →
      Reads s.moduleAs n full → full.head? = some (some x) → ModuleIn env p x → ModuleIn env p (fullText full)

/-- Variables of a program and the names of their values: the value assigned to one, or a dictionary if a loop is over dictionaries. -/
inductive ValueIn (env : Env) (p : Node) : String → String → Prop
  | assign {n v : Node} {x y : String} {s : S} : In n p → AssignsTo n v x → RenamesFrom env p s → ValueName s.moduleAs v y → ValueIn env p x y
  | loop {n t it e : Node} {x : String} {c : Ctx} {values : Table} : In n p → n.kind = .for ∨ n.kind = .asyncFor → n.field .target = some t → t.kind = .name x c →
      n.field .iter = some it → e ∈ Elements it → (∀ z y, Py.Dict.get? values z = some y → ValueIn env p z y) → DictValue values e → ValueIn env p x "dict"

/-- What may be known when the visitor is at `n` in the program `p`: everything is due to some part of `p`, and the calls whose arguments are
being looked at are calls around `n`. -/
structure Learnt (env : Env) (p n : Node) (s : S) : Prop where
  here : In n p
  renames : RenamesFrom env p s
  origins : ∀ x m, Py.Dict.get? s.importMemMod x = some m → ∃ n, In n p ∧ Emits env n (.origin x m)
  values : ∀ x y, Py.Dict.get? s.nameRes x = some y → ValueIn env p x y
  types : ∀ x ys y, Py.Dict.get? s.nameResType x = some ys → y ∈ ys → ∃ n, In n p ∧ Emits env n (.type x y)
  once : ∀ x ys, Py.Dict.get? s.nameResType x = some ys → ys.Nodup
  defs : ∀ x ∈ s.userDefs, ∃ n, In n p ∧ Defines n x
  modules : ∀ m ∈ s.modules, ModuleIn env p m
  slices : ∀ u ∈ s.ellipsisInSlices, ∃ n, In n p ∧ Emits env n (.slice u)
  calls : ∀ f ∈ s.fnStack, ∃ c, In c p ∧ In n c ∧ EmitsIn env (RenamesFrom env p) c (.call f)

/-- The program has a node that gives rise to the event, given what may be known there. -/
def FoundIn (env : Env) (p : Node) (ev : Event) : Prop := ∃ n, In n p ∧ EmitsIn env (Learnt env p n) n ev

/-- The features whose constructs are ones only given what is known. -/
def Dependent : Flag → Bool
  | .longv2 | .ellipsisOutOfSlices | .moduleDirFunc | .moduleGetattrFunc | .fstringsSelfDoc | .dictUnion | .dictUnionMerge | .unionTypes
  | .builtinGenericTypeAnnotations | .maybeAnnotations => true
  | _ => false

/-- All findings are due to parts of the program. -/
structure Traces (env : Env) (p : Node) (s : S) : Prop where
  modules : ∀ m ∈ s.modules, FoundIn env p (.module m)
  members : ∀ m ∈ s.members, FoundIn env p (.member m)
  kwargs : ∀ q ∈ s.kwargs, FoundIn env p (.kwarg q.1 q.2)
  decos : ∀ u ∈ s.userFuncDecos, FoundIn env p (.deco u)
  typecodes : ∀ t ∈ s.typecodes, FoundIn env p (.typecode t)
  codecsErr : ∀ c ∈ s.codecsErr, FoundIn env p (.errorHandler c)
  codecsEnc : ∀ c ∈ s.codecsEnc, FoundIn env p (.encoding c)
  flags : ∀ f ∈ s.flags, Dependent f = true → FoundIn env p (.flag f)

end Vermin.Spec
