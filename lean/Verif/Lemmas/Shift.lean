import Verif.Model.Visitor
import Verif.Spec.Nodes
import Verif.Spec.Flow
/-
How deep a node is nested has no influence on what is found in it, unless functions `__dir__` or `__getattr__` of `__init__.py` are
in it: only these and the display of the visits read the depth.
-/
namespace Vermin
open Py V Spec

/-- The state with nodes nested by `k` more. -/
def S.deep (s : S) (k : Nat) : S := { s with depth := s.depth + k }

/-- The same error, or states that differ by `k` in depth, the first one being as deep as before. -/
def Deeper (k d : Nat) : Except Err S → Except Err S → Prop
  | .ok t, .ok t' => t' = t.deep k ∧ t.depth = d
  | .error e, .error e' => e' = e
  | _, _ => False

/-- An action that neither depends on the depth nor changes it. -/
structure Shifts (v : V) : Prop where
  run : ∀ s k, Deeper k s.depth (v s) (v (s.deep k))

namespace Shifts
theorem skip : Shifts skip := ⟨fun _ _ => ⟨rfl, rfl⟩⟩
theorem seq {a b : V} (ha : Shifts a) (hb : Shifts b) : Shifts (a ;; b) := ⟨fun s k => by
  have h := ha.run s k
  show Deeper k _ (V.seq a b s) (V.seq a b _)
  unfold V.seq
  revert h
  cases a s with
  | ok t =>
    cases a (s.deep k) with
    | ok t' => rintro ⟨rfl, h⟩; rw [← h]; exact hb.run t k
    | error e => exact False.elim
  | error e =>
    cases a (s.deep k) with
    | ok t' => exact False.elim
    | error e' => exact id⟩
theorem rd {f : S → V} (h : ∀ s, Shifts (f s)) (e : ∀ s k, f (s.deep k) = f s := by intros; rfl) : Shifts (V.rd f) :=
  ⟨fun s k => by show Deeper k _ (f s s) (f (s.deep k) (s.deep k)); rw [e]; exact (h s).run s k⟩
theorem raise (x : Err) : Shifts fun _ => .error x := ⟨fun _ _ => rfl⟩
theorem act {f : S → S} (h : ∀ s k, f (s.deep k) = (f s).deep k := by intros; rfl) (hd : ∀ s, (f s).depth = s.depth := by intros; rfl) : Shifts (V.upd f) :=
  ⟨fun s k => ⟨h s k, hd s⟩⟩
theorem when {c : Bool} {a : V} (h : Shifts a) : Shifts (V.when c a) := by
  cases c with
  | true => exact h
  | false => exact skip
theorem alt {c : Bool} {a b : V} (h : Shifts a) (k : Shifts b) : Shifts (V.alt c a b) := by
  cases c with
  | true => exact h
  | false => exact k
theorem ite {c : Prop} [Decidable c] {a b : V} (ha : Shifts a) (hb : Shifts b) : Shifts (if c then a else b) := by
  split
  · exact ha
  · exact hb
theorem lift {α : Type} {x : Except Err α} {f : α → V} (h : ∀ a, Shifts (f a)) : Shifts (V.lift x f) := by
  cases x with
  | ok a => exact h a
  | error e => exact raise e
theorem opt {α : Type} {x : Option α} {a : V} {f : α → V} (h0 : Shifts a) (h : ∀ v, Shifts (f v)) : Shifts (V.opt x a f) := by
  cases x with
  | none => exact h0
  | some v => exact h v
theorem each {α : Type} {f : α → V} : ∀ l : List α, (∀ x ∈ l, Shifts (f x)) → Shifts (V.each f l)
  | [], _ => skip
  | x :: l, h => seq (h x (by simp)) (each l fun y hy => h y (by simp [hy]))
theorem scope {a : V} (h : Shifts a) : Shifts (inScope a) := rd fun s => seq h act
theorem flag (f : Flag) : Shifts (setFlag f) := act
variable {env : Env}
theorem print (l msg ent line vs pl) : Shifts (verbosePrint env l msg ent line vs pl) := by
  show Shifts (V.lift (violates env vs) _)
  exact lift fun b => when act
theorem found (f : Flag) (msg : String) (vs : Option Req) (line : LineArg) (pl : Option Bool) : Shifts (found env f msg vs line pl) := seq (flag f) (print ..)
theorem find {f : S → S} (hf : ∀ s k, f (s.deep k) = (f s).deep k := by intros; rfl) (hd : ∀ s, (f s).depth = s.depth := by intros; rfl) (x : Ent) (l c : Option Nat) :
    Shifts (V.upd fun s => (f s).addLineCol x l c) :=
  act (fun s k => by rw [hf]; cases l <;> rfl) fun s => by cases l <;> exact hd s
theorem module (m : String) (l c) : Shifts (addModule env m l c) := rd fun s => ite (print ..) (ite (print ..) (when (find ..)))
theorem member (m : String) (l c) : Shifts (addMember env m l c) := rd fun s => ite (print ..) (ite (print ..) (when (find ..)))
theorem kwargs (f : String) (k : Option String) (l) : Shifts (addKwargs env f k l) := rd fun s => ite (print ..) (ite (print ..) (when (find ..)))
theorem deco (u : String) (l) : Shifts (addUserFuncDeco env u l) := rd fun s => ite (print ..) (ite (print ..) (when (find ..)))
theorem strftime (d : String) (l) : Shifts (addStrftime d l) := find ..
theorem bytesDir (d : String) (l) : Shifts (addBytesDir d l) := find ..
theorem typecode (d : String) (l c) : Shifts (addTypecode d l c) := rd fun s => when (find ..)
theorem errorHandler (c : Const) (l) : Shifts (addErrorHandler env c l) := ite (print ..) (find ..)
theorem encoding (c : Const) (l) : Shifts (addEncoding env c l) := ite (print ..) (find ..)
theorem userDef (x : String) : Shifts (addUserDef x) := act
theorem nameRes (x y : String) : Shifts (addNameRes x y) := act
theorem nameResType (x y : String) : Shifts (addNameResType x y) := act
theorem pushFn (f : String) : Shifts (pushFn f) := act
theorem popFn : Shifts popFn := act
theorem gate {n : Node} {a : V} (h : Shifts a) : Shifts (gate env n a) := ite skip h
end Shifts

variable {env : Env} {n : Node} {cs : List Child}

/-- Children whose visits do not depend on the depth. -/
structure KidsShift (cs : List Child) : Prop where
  visit : ∀ c ∈ cs, Shifts c.visit
  gvisit : ∀ c ∈ cs, Shifts c.gvisit

theorem KidsShift.filter (h : KidsShift cs) (p : Child → Bool) : KidsShift (cs.filter p) :=
  ⟨fun c hc => h.visit c (List.mem_filter.mp hc).1, fun c hc => h.gvisit c (List.mem_filter.mp hc).1⟩

theorem genEnter_quiet (hp : env.cfg.printVisits = false) (n : Node) :
    genEnter env n = V.opt n.info.line V.skip (fun l => V.upd fun s => { s with line := l }) ;; V.upd (fun s => { s with depth := s.depth + 1 }) := by
  unfold genEnter
  rw [hp]
  funext s
  cases n.info.line <;> rfl

/-- Going in and out makes no difference to such an action. -/
theorem nested_shifts {a : V} (h : Shifts a) : (V.upd (fun s => { s with depth := s.depth + 1 }) ;; a ;; V.upd fun s => { s with depth := s.depth - 1 }) = a := by
  funext s
  have h := h.run s 1
  show V.seq (V.seq _ a) _ s = a s
  unfold V.seq V.upd
  change (match a (s.deep 1) with | .ok s' => Except.ok { s' with depth := s'.depth - 1 } | .error e => .error e) = a s
  revert h
  cases a s with
  | ok t =>
    cases a (s.deep 1) with
    | ok t' => rintro ⟨rfl, h⟩; rfl
    | error e => exact False.elim
  | error e =>
    cases a (s.deep 1) with
    | ok t' => exact False.elim
    | error e' => rintro rfl; rfl

theorem gen_nested (hp : env.cfg.printVisits = false) (n : Node) (h : Shifts (V.each Child.visit cs)) :
    gen env n cs = V.opt n.info.line V.skip (fun l => V.upd fun s => { s with line := l }) ;; V.each Child.visit cs := by
  unfold gen
  rw [genEnter_quiet hp]
  refine Eq.trans ?_ (congrArg (V.seq _) (nested_shifts h))
  funext s
  cases n.info.line <;> rfl

theorem gen_shifts (hp : env.cfg.printVisits = false) (n : Node) (h : KidsShift cs) : Shifts (gen env n cs) := by
  rw [gen_nested hp n (.each _ h.visit)]
  exact .seq (.opt .skip fun _ => .act) (.each _ h.visit)

/-! ### The methods -/

theorem addUserDefNode_shifts (t : Node) : Shifts (addUserDefNode t) := by
  unfold addUserDefNode
  split
  · exact .userDef _
  · exact .skip
theorem addTargets_shifts (t : Node) : Shifts (addTargets t) := .each _ fun x _ => addUserDefNode_shifts x
theorem addAlias_shifts (x y : String) : Shifts (addAlias x y) := .seq .act (.userDef _)
theorem visitImport_shifts (n : Node) : Shifts (visitImport env n) :=
  .gate (.each _ fun a _ => .seq (.seq (.module ..) (.member ..)) (.opt .skip fun _ => addAlias_shifts _ _))
theorem visitImportFrom_shifts (n : Node) (m : Option String) (l : Nat) : Shifts (visitImportFrom env n m l) :=
  .opt .skip fun m => .when (.gate (.seq (.module ..) (.each _ fun a _ =>
    .seq (.when (.seq (.seq (.seq .act (.module ..)) (.member ..)) (.member ..))) (.opt .skip fun _ => addAlias_shifts _ _))))
theorem visitName_shifts (id : String) : Shifts (visitName env id) :=
  .ite (.rd fun s => .ite (.print ..) (.ite (.print ..) (.found ..))) (.when (.seq (.flag _) (.print ..)))
theorem checkUnpacking_shifts (n : Node) : Shifts (checkUnpacking env n) := .when (.found ..)
theorem typecodeArgs_shifts (n : Node) (k : Nat) : Shifts (typecodeArgs n k) := .each _ fun a _ => .opt .skip fun _ => .typecode ..
theorem encodingKws_shifts (n : Node) : Shifts (addCodecsEncodingKws env n) := .each _ fun a _ => .when (.opt .skip fun _ => .encoding ..)
theorem checkCodecs_shifts (f : String) (n : Node) : Shifts (checkCodecsFunction env f n) :=
  .seq (.opt .skip fun idx => .seq (.opt .skip fun _ => .errorHandler ..) (.each _ fun a _ => .when (.opt .skip fun _ => .errorHandler ..)))
    (.opt .skip fun idxs => .each _ fun idx _ => .opt (encodingKws_shifts n) fun _ => .ite (.encoding ..) (.seq (.encoding ..) (encodingKws_shifts n)))
theorem callName_shifts (n : Node) (id : String) : Shifts (callName env n id) := by
  refine .seq (.seq (.seq (.pushFn id) (.member ..)) (.rd fun s => ?_)) (.rd fun s => ?_)
  · cases Dict.get? s.importMemMod id with
    | some m => exact checkCodecs_shifts _ n
    | none =>
      dsimp only
      cases Dict.get? s.moduleAs id with
      | some m => exact checkCodecs_shifts _ n
      | none => exact .skip
  · exact .ite (.flag _) (.ite (typecodeArgs_shifts n 6) (.ite (.when (.found ..)) (.when (.found ..))))
theorem callAttr_shifts (n f : Node) (attr : String) : Shifts (callAttr env n f attr) := by
  refine .seq (.ite (.when (.seq (.print ..) (.flag _))) (.when (.each _ fun a _ => .opt .skip fun c => ?_)))
    (.rd fun s => .lift fun name => .seq (.seq (.pushFn name) (checkCodecs_shifts name n)) (.when (typecodeArgs_shifts n 12)))
  cases c with
  | str t => exact .each _ fun d _ => .strftime ..
  | _ => exact .raise _
theorem callFunc_shifts (n f : Node) : Shifts (callFunc env n f) := by
  unfold callFunc
  split
  · exact callName_shifts n _
  · exact callAttr_shifts n f _
  · exact .skip
theorem attrModules_shifts (full : List (Option String)) (dot : String) (l : Nat) : ∀ k i, Shifts (attrModules env full dot l k i)
  | 0, _ => .skip
  | k + 1, i => .rd fun s => .opt .skip fun m =>
      .seq (.rd fun s => .ite (.module ..) (.opt .skip fun _ => .member ..)) (attrModules_shifts full dot l k (i + 1))
theorem attrNameRes_shifts (full : List (Option String)) (l : Nat) : Shifts (attrNameRes env full l) := by
  refine .rd fun s => .opt .skip fun res => .seq (.opt (.member ..) fun _ => .member ..) ?_
  unfold attrTwoTier
  split
  · exact .opt .skip fun _ => .member ..
  · exact .skip
theorem visitConstant_shifts (n : Node) (c : Const) : Shifts (visitConstant env n c) := by
  cases c with
  | bytes t => exact .seq (.found ..) (.each _ fun d _ => .bytesDir ..)
  | bool b => exact .seq (.flag _) (.print ..)
  | ellipsis =>
    show Shifts (visitEllipsis env n)
    exact .rd fun s => .when (.found ..)
  | _ => exact .skip
theorem selfDoc_deep (s : S) (k : Nat) : ∀ l : List Node, selfDoc (s.deep k) l = selfDoc s l
  | [] => rfl
  | [_] => rfl
  | a :: b :: l => by
    have h : selfDocPair (s.deep k) a b = selfDocPair s a b := rfl
    simp only [selfDoc, h, selfDoc_deep s k (b :: l)]
theorem binMod_shifts (l : Node) : Shifts (binMod env l) := .seq (.when (.found ..)) (.when (.found ..))
theorem binBitOr_shifts (n l r : Node) : Shifts (binBitOr env n l r) :=
  .seq (.rd fun s => .lift fun _ => .when (.found ..)) (.when (.rd fun s => .lift fun _ => .when (.found ..)))
theorem addNameResAssign_shifts (n : Node) : Shifts (addNameResAssign n) := by
  refine .opt .skip fun v => .rd fun s => .lift fun a => .each _ fun t _ => .opt .skip fun id => ?_
  cases a with
  | value v => exact .nameRes ..
  | type v => exact .nameResType ..
  | nothing => exact .skip
theorem augBitOr_shifts (n t v : Node) : Shifts (augBitOr env n t v) :=
  .rd fun s => .lift fun b => .ite (.lift fun a => .lift fun b => .when (.found ..)) (.when (.lift fun b => .when (.found ..)))
theorem checkRelaxed_shifts (n : Node) : Shifts (checkRelaxed env n) := .each _ fun d _ => .gate (.when (.found ..))
theorem namesAsMembers_shifts (e : Node) : Shifts (namesAsMembers env e) := .each _ fun m _ => .opt .skip fun _ => .member ..
theorem compTargets_shifts (n : Node) : Shifts (compTargets n) := .each _ fun c _ => .opt .skip fun t => addTargets_shifts t
theorem genericType_shifts (name : String) : Shifts (genericType env name) := .alt (.rd fun s => .ite (.print ..) (.found ..)) (.flag _)
theorem subscriptName_shifts (coll : String) : Shifts (subscriptName env coll) :=
  .rd fun s => .ite (genericType_shifts _) (.opt (.opt .skip fun ts => .each _ fun t _ => .when (genericType_shifts _)) fun _ => .when (genericType_shifts _))
theorem markEllipsis_shifts (n : Node) : Shifts (markEllipsis n) := .when .act
theorem markSubscript_shifts (sl : Node) : Shifts (markSubscript sl) := by
  refine .seq (markEllipsis_shifts sl) ?_
  split
  · exact .each _ fun x _ => markEllipsis_shifts x
  · exact .skip
theorem markSlice_shifts (sl : Node) : Shifts (markSlice sl) := by
  unfold markSlice
  split
  · exact .each _ fun x _ => markEllipsis_shifts x
  · exact .opt .skip fun x => markSubscript_shifts x
  · exact markSubscript_shifts sl
theorem forDict_shifts (n : Node) : Shifts (forDict n) := .opt .skip fun id => .opt .skip fun it => .rd fun s => .lift fun b => .when (.nameRes ..)
theorem handleFor_shifts (hg : Shifts (gen env n cs)) : Shifts (handleFor env n cs) :=
  .gate (.seq .act (.scope (.seq (.seq (.seq (.opt .skip fun t => addTargets_shifts t) (forDict_shifts n)) hg) .act)))
theorem handleWith_shifts (hg : Shifts (gen env n cs)) : Shifts (handleWith env n cs) :=
  .scope (.seq (.seq (.each _ fun w _ => .opt .skip fun t => addTargets_shifts t) (.when (.seq (.found ..) (.when (.found ..))))) hg)
theorem visitOp_shifts (o : Op) (hg : Shifts (gen env n cs)) : Shifts (visitOp env n o cs) := by
  cases o <;> first | exact .skip | exact hg | exact .seq (.found ..) hg

theorem dirFuncs_shifts (n : Node) (name : String) (h : env.isInitFile = true → name ≠ "__dir__" ∧ name ≠ "__getattr__") : Shifts (dirFuncs env n name) :=
  .opt .skip fun args => .rd (fun s => .when (.ite (.found ..) (.when (.found ..)))) fun s k => by
    cases hi : env.isInitFile with
    | false => simp
    | true => simp [h hi, V.when]
theorem checkUserFuncDecos_shifts (n : Node) : Shifts (checkUserFuncDecos env n) :=
  .each _ fun d _ => .gate (.rd fun s => .lift fun name => .opt .skip fun x => .deco ..)
theorem hasLitAnn_shifts (n : Node) : Shifts (hasLitAnn env n) := .alt (.found ..) (.flag _)
theorem argAnns_shifts (n : Node) : ∀ l : List Node, Shifts (argAnns env n l)
  | [] => .skip
  | a :: as => .opt (argAnns_shifts n as) fun ann => .seq (.found ..) (.rd fun s => .lift fun b => .alt (hasLitAnn_shifts n) (argAnns_shifts n as))
/-- Function definitions do not depend on the depth either, except those of `__dir__` and `__getattr__` in `__init__.py`. -/
theorem handleFunctionDef_shifts (hp : env.cfg.printVisits = false) (n : Node) (name : String)
    (hi : env.isInitFile = true → name ≠ "__dir__" ∧ name ≠ "__getattr__") (h : KidsShift cs) :
    Shifts (handleFunctionDef env n name cs) :=
  .seq (.seq (.seq (.seq (.userDef _) (dirFuncs_shifts n name hi))
    (.opt .skip fun l => .seq (.seq (.found ..) (checkRelaxed_shifts n)) (checkUserFuncDecos_shifts n)))
    (.scope (gen_shifts hp _ (h.filter _)))) (.alt (.found ..) (argAnns_shifts n _))

theorem visitAlg_shifts (hp : env.cfg.printVisits = false) (n : Node) (h : KidsShift cs)
    (hf : Undirected env n) : Shifts (visitAlg env n cs) := by
  have hg : Shifts (gen env n cs) := gen_shifts hp n h
  unfold visitAlg
  split
  · exact visitImport_shifts n
  · exact visitImportFrom_shifts n _ _
  · exact visitName_shifts _
  · exact .seq (.when (.found ..)) hg
  · exact .gate (.seq (.seq (.seq (.opt .skip fun f => callFunc_shifts n f) (checkUnpacking_shifts n)) hg) .popFn)
  · exact .seq (.rd fun s => .lift fun full => .when (.seq (.seq (attrModules_shifts ..) (.member ..)) (attrNameRes_shifts ..))) hg
  · exact .rd fun s => .seq (.each _ fun f _ => .kwargs ..) (.when hg)
  · exact .seq (.seq (.when (.opt .skip fun l => binMod_shifts l)) (.when (.opt .skip fun l => .opt .skip fun r => binBitOr_shifts n l r))) hg
  · exact visitConstant_shifts n _
  · exact .seq (.seq (.found ..) (.when (.rd (fun s => .lift fun _ => .when (.found ..)) fun s k => by rw [selfDoc_deep]))) hg
  · exact .gate (.seq (.seq (.each _ fun t _ => addTargets_shifts t) (addNameResAssign_shifts n)) hg)
  · exact .gate (.seq (.seq (.seq (.opt .skip fun t => addUserDefNode_shifts t) (addNameResAssign_shifts n))
      (.when (.opt .skip fun t => .opt .skip fun v => augBitOr_shifts n t v))) hg)
  · exact .gate (.seq (.seq (.seq (.seq (.seq (.opt .skip fun t => addUserDefNode_shifts t) (addNameResAssign_shifts n)) (.alt hg (.flag _)))
      (.flag _)) (.found ..)) (.opt .skip fun a => .ite (.found ..) (.when (.found ..))))
  · rename_i x hk
    exact .gate (.rd fun s => .seq (handleFunctionDef_shifts hp n x (fun hi => hf hi x (.inl hk)) h) .act)
  · rename_i x hk
    exact .gate (.rd fun s => .seq (.seq (.seq (handleFunctionDef_shifts hp n x (fun hi => hf hi x (.inr hk)) h) (.found ..)) (.rd fun t => .when (.found ..))) .act)
  · exact .scope hg
  · exact .gate (.seq (.seq (.found ..) .act) hg)
  · exact .gate (.seq (.seq (.seq (.seq (.seq (.userDef _) (.nameResType _ _)) (.opt .skip fun l => .seq (.found ..) (checkRelaxed_shifts n)))
      (.each _ fun k _ => .when (.found ..))) hg) (.each _ (h.filter _).gvisit))
  · exact .gate (.seq (.seq (.opt .skip fun t => addUserDefNode_shifts t) (.found ..)) hg)
  · exact .seq (.seq (.seq (.when (.found ..)) (.when (.found ..))) (.each _ fun a _ => .opt .skip fun _ => .userDef _)) hg
  · exact .gate (.seq (.found ..) hg)
  · exact .gate (.seq (.found ..) hg)
  · exact .gate (.seq .act hg)
  · exact .gate (.seq (.seq (.seq (.opt .skip fun c => .seq (.found ..) (.when (.found ..))) (.opt .skip fun c => namesAsMembers_shifts c))
      (.opt .skip fun c => namesAsMembers_shifts c)) hg)
  · exact .gate (.seq (.when (.found ..)) (.scope (.seq (.seq (.opt .skip fun _ => .userDef _) (.opt .skip fun c => namesAsMembers_shifts c)) hg)))
  · exact .scope (.seq (compTargets_shifts n) hg)
  · exact .scope (.seq (compTargets_shifts n) hg)
  · exact .seq (.found ..) (.scope (.seq (compTargets_shifts n) hg))
  · exact .seq (.found ..) (.scope (.seq (compTargets_shifts n) hg))
  · exact .seq (.when (.found ..)) (.rd fun s => .seq (.seq hg (.rd fun t => .when (.found ..))) .act)
  · exact .rd fun s => .when (.found ..)
  · exact .gate (.seq (.found ..) (handleWith_shifts hg))
  · exact .gate (.seq (.found ..) (handleWith_shifts hg))
  · exact .seq (checkUnpacking_shifts n) hg
  · exact .seq (checkUnpacking_shifts n) hg
  · exact .seq (checkUnpacking_shifts n) hg
  · exact .seq (.found ..) (.seq (checkUnpacking_shifts n) hg)
  · exact .gate (.seq (.seq (.opt .skip fun v => .rd fun s => .lift fun name => .opt .skip fun c => subscriptName_shifts c)
      (.opt .skip fun sl => markSlice_shifts sl)) hg)
  · exact .gate (.seq (.found ..) hg)
  · exact .gate hg
  · exact .gate hg
  · exact .gate hg
  · exact handleFor_shifts hg
  · exact .gate (.seq (.found ..) (handleFor_shifts hg))
  · exact .gate (.seq (.seq .act hg) .act)
  · exact .gate (.seq (.seq (.seq .act (.each _ (h.filter _).visit)) .act) hg)
  · exact .gate (.seq (.found ..) hg)
  · exact visitOp_shifts _ hg
  · exact .skip
  · exact .skip
  · exact .skip
  · exact hg

mutual
theorem visitNode_shifts (hp : env.cfg.printVisits = false) : (n : Node) → (∀ m, In m n → Undirected env m) →
    Shifts (visitNode env n).1 ∧ Shifts (visitNode env n).2
  | .mk i ks, h => by
    have hk := visitKids_shifts hp ks fun k hk m hm => h m (.kid hk hm)
    simp only [visitNode]
    exact ⟨visitAlg_shifts hp _ hk (h _ (.self _)), gen_shifts hp _ hk⟩
theorem visitKids_shifts (hp : env.cfg.printVisits = false) : (ks : List Node) →
    (∀ k ∈ ks, ∀ m, In m k → Undirected env m) → KidsShift (visitKids env ks)
  | [], _ => ⟨nofun, nofun⟩
  | k :: ks, h => by
    have h1 := visitNode_shifts hp k (h k (by simp))
    have h2 := visitKids_shifts hp ks fun x hx => h x (by simp [hx])
    simp only [visitKids]
    refine ⟨fun c hc => ?_, fun c hc => ?_⟩
    · rcases List.mem_cons.mp hc with rfl | hc
      · exact h1.1
      · exact h2.visit c hc
    · rcases List.mem_cons.mp hc with rfl | hc
      · exact h1.2
      · exact h2.gvisit c hc
end

end Vermin
