import Verif.Lemmas.Moved
import Verif.Spec.Reach
import Verif.Model.Minimum
/-
Two visits of the same program with different positions.
-/
namespace Vermin
open Py V Spec Node

/-- What a visit knows of a file besides its program. -/
structure Site where
  path : String
  source : Option (List Char)
  noLines : List Nat
  dump : Node → String

/-- The visit of another file. -/
def Env.on (env : Env) (e : Site) : Env := { env with path := e.path, source := e.source, noLines := e.noLines, dump := e.dump }

/-- The state with other positions, another output and another name of the last function called, which is never read. -/
def S.placed (g : Layout) (s : S) (l : Nat × Option String) (lc : Dict Ent (Nat × Option Nat)) (o : List String) : S :=
  { s with line := l.1, functionName := l.2, lineCol := lc, out := o, ellipsisInSlices := s.ellipsisInSlices.map g.uid }

/-- The same error, or states that differ in positions and output only. -/
def Aligned (g : Layout) : Except Err S → Except Err S → Prop
  | .ok t, .ok t' => ∃ l lc o, t' = t.placed g l lc o
  | .error e, .error e' => e = e'
  | _, _ => False

/-- Actions that do the same up to positions and output. -/
structure Follows (g : Layout) (v v' : V) : Prop where
  run : ∀ s l lc o, Aligned g (v s) (v' (s.placed g l lc o))

/-- The source tests of a node do not depend on where it is. -/
structure Agrees (env : Env) (e : Site) (g : Layout) (k : Node) : Prop where
  noLine : (env.on e).isNoLine (k.moved g).line = env.isNoLine k.line
  star : (∃ x, k.kind = .exceptHandler x) → isExceptStar (env.on e) (k.moved g) = isExceptStar env k
  paren : k.kind = .with ∨ k.kind = .asyncWith → 1 < (k.fields .items).length → isWithParen (env.on e) (k.moved g) = isWithParen env k

variable {g : Layout} {env : Env} {e : Site}

namespace Follows
theorem skip : Follows g skip skip := ⟨fun _ l lc o => ⟨l, lc, o, rfl⟩⟩
theorem seq {a a' b b' : V} (ha : Follows g a a') (hb : Follows g b b') : Follows g (a ;; b) (a' ;; b') := ⟨fun s l lc o => by
  have h := ha.run s l lc o
  show Aligned g (V.seq a b s) (V.seq a' b' _)
  unfold V.seq
  revert h
  cases a s with
  | ok t =>
    cases a' (s.placed g l lc o) with
    | ok t' => rintro ⟨l, lc, o, rfl⟩; exact hb.run t l lc o
    | error e => exact False.elim
  | error e =>
    cases a' (s.placed g l lc o) with
    | ok t' => exact False.elim
    | error e' => exact id⟩
theorem rd {f f' : S → V} (h : ∀ s l lc o, Follows g (f s) (f' (s.placed g l lc o))) : Follows g (V.rd f) (V.rd f') :=
  ⟨fun s l lc o => (h s l lc o).run s l lc o⟩
theorem raise (x : Err) : Follows g (fun _ => .error x) (fun _ => .error x) := ⟨fun _ _ _ _ => rfl⟩
theorem upd {f f' : S → S} (h : ∀ s l lc o, ∃ l' lc' o', f' (s.placed g l lc o) = (f s).placed g l' lc' o') : Follows g (V.upd f) (V.upd f') := ⟨h⟩
/-- An action on other fields. -/
theorem act {f : S → S} (h : ∀ s l lc o, f (s.placed g l lc o) = (f s).placed g l lc o) : Follows g (V.upd f) (V.upd f) :=
  upd fun s l lc o => ⟨l, lc, o, h s l lc o⟩
theorem when {c : Bool} {a a' : V} (h : Follows g a a') : Follows g (V.when c a) (V.when c a') := by
  cases c with
  | true => exact h
  | false => exact skip
theorem alt {c : Bool} {a a' b b' : V} (h : Follows g a a') (k : Follows g b b') : Follows g (V.alt c a b) (V.alt c a' b') := by
  cases c with
  | true => exact h
  | false => exact k
theorem ite {c : Prop} [Decidable c] {a a' b b' : V} (ha : Follows g a a') (hb : Follows g b b') : Follows g (if c then a else b) (if c then a' else b') := by
  split
  · exact ha
  · exact hb
theorem lift {α : Type} {x : Except Err α} {f f' : α → V} (h : ∀ a, Follows g (f a) (f' a)) : Follows g (V.lift x f) (V.lift x f') := by
  cases x with
  | ok a => exact h a
  | error e => exact raise e
theorem opt {α : Type} {x : Option α} {a a' : V} {f f' : α → V} (h0 : Follows g a a') (h : ∀ v, Follows g (f v) (f' v)) :
    Follows g (V.opt x a f) (V.opt x a' f') := by
  cases x with
  | none => exact h0
  | some v => exact h v
theorem optNode {x : Option Node} {a a' : V} {f f' : Node → V} (h0 : Follows g a a') (h : ∀ v, x = some v → Follows g (f v) (f' (v.moved g))) :
    Follows g (V.opt x a f) (V.opt (x.map (moved g)) a' f') := by
  cases x with
  | none => exact h0
  | some v => exact h v rfl
theorem each {α : Type} {f f' : α → V} (h : ∀ x, Follows g (f x) (f' x)) : ∀ l, Follows g (V.each f l) (V.each f' l)
  | [] => skip
  | x :: l => seq (h x) (each h l)
theorem eachNode {f f' : Node → V} : ∀ l : List Node, (∀ x ∈ l, Follows g (f x) (f' (x.moved g))) → Follows g (V.each f l) (V.each f' (l.map (moved g)))
  | [], _ => skip
  | x :: l, h => seq (h x (by simp)) (eachNode l fun y hy => h y (by simp [hy]))
theorem scope {a a' : V} (h : Follows g a a') : Follows g (inScope a) (inScope a') := rd fun s _ _ _ => seq h (act fun _ _ _ _ => rfl)
theorem flag (f : Flag) : Follows g (setFlag f) (setFlag f) := act fun _ _ _ _ => rfl

theorem print (l msg ent line line' vs pl) : Follows g (verbosePrint env l msg ent line vs pl) (verbosePrint (env.on e) l msg ent line' vs pl) := by
  show Follows g (V.lift (violates env vs) _) (V.lift (violates env vs) _)
  exact lift fun b => when (upd fun s l lc o => ⟨l, lc, _, rfl⟩)
theorem found (f : Flag) (msg : String) (vs : Option Req) (line line' : LineArg) (pl : Option Bool) :
    Follows g (found env f msg vs line pl) (Vermin.found (env.on e) f msg vs line' pl) := seq (flag f) (print ..)
theorem nprint (msg msg' : String) : Follows g (nprintV env msg) (nprintV (env.on e) msg') := when (upd fun s l lc o => ⟨l, lc, _, rfl⟩)

/-- An entity is found. -/
theorem find {f : S → S} (hf : ∀ s l lc o, f (s.placed g l lc o) = (f s).placed g l lc o) (x : Ent) (l l' c c' : Option Nat) :
    Follows g (V.upd fun s => (f s).addLineCol x l c) (V.upd fun s => (f s).addLineCol x l' c') := upd fun s k lc o => by
  rw [hf]
  cases l <;> cases l' <;> exact ⟨k, _, _, rfl⟩
theorem module (m : String) (l l' c c') : Follows g (addModule env m l c) (addModule (env.on e) m l' c') :=
  rd fun s _ _ _ => ite (print ..) (ite (print ..) (when (find (fun _ _ _ _ => rfl) ..)))
theorem member (m : String) (l l' c c') : Follows g (addMember env m l c) (addMember (env.on e) m l' c') :=
  rd fun s _ _ _ => ite (print ..) (ite (print ..) (when (find (fun _ _ _ _ => rfl) ..)))
theorem kwargs (f : String) (k : Option String) (l l') : Follows g (addKwargs env f k l) (addKwargs (env.on e) f k l') :=
  rd fun s _ _ _ => ite (print ..) (ite (print ..) (when (find (fun _ _ _ _ => rfl) ..)))
theorem deco (u : String) (l l') : Follows g (addUserFuncDeco env u l) (addUserFuncDeco (env.on e) u l') :=
  rd fun s _ _ _ => ite (print ..) (ite (print ..) (when (find (fun _ _ _ _ => rfl) ..)))
theorem strftime (d : String) (l l') : Follows g (addStrftime d l) (addStrftime d l') := find (fun _ _ _ _ => rfl) ..
theorem bytesDir (d : String) (l l') : Follows g (addBytesDir d l) (addBytesDir d l') := find (fun _ _ _ _ => rfl) ..
theorem typecode (d : String) (l l' c c') : Follows g (addTypecode d l c) (addTypecode d l' c') :=
  rd fun s _ _ _ => when (find (fun _ _ _ _ => rfl) ..)
theorem errorHandler (c : Const) (l l') : Follows g (addErrorHandler env c l) (addErrorHandler (env.on e) c l') :=
  ite (print ..) (find (fun _ _ _ _ => rfl) ..)
theorem encoding (c : Const) (l l') : Follows g (addEncoding env c l) (addEncoding (env.on e) c l') :=
  ite (print ..) (find (fun _ _ _ _ => rfl) ..)
theorem userDef (x : String) : Follows g (addUserDef x) (addUserDef x) := act fun _ _ _ _ => rfl
theorem nameRes (x y : String) : Follows g (addNameRes x y) (addNameRes x y) := act fun _ _ _ _ => rfl
theorem nameResType (x y : String) : Follows g (addNameResType x y) (addNameResType x y) := act fun _ _ _ _ => rfl
theorem pushFn (f : String) : Follows g (pushFn f) (Vermin.pushFn f) := upd fun _ l lc o => ⟨(l.1, some f), lc, o, rfl⟩
theorem popFn : Follows g popFn Vermin.popFn := upd fun s l lc o => ⟨(l.1, s.fnStack.getLast?), lc, o, rfl⟩

theorem gate {n : Node} {a a' : V} (hn : Agrees env e g n) (h : Follows g a a') : Follows g (gate env n a) (Vermin.gate (env.on e) (n.moved g) a') := by
  unfold Vermin.gate
  rw [hn.noLine]
  exact ite skip h
end Follows

/-- Children whose visits do the same, and more children whose visits do nothing. -/
inductive Couples (g : Layout) : List Child → List Child → Prop where
  | nil : Couples g [] []
  | cons {c c' : Child} {cs cs' : List Child} : c'.node.fld = c.node.fld → Follows g c.visit c'.visit → Follows g c.gvisit c'.gvisit →
      Couples g cs cs' → Couples g (c :: cs) (c' :: cs')
  | more {c' : Child} {cs cs' : List Child} : Follows g V.skip c'.visit → Follows g V.skip c'.gvisit → Couples g cs cs' → Couples g cs (c' :: cs')

theorem Couples.visits {cs cs' : List Child} (h : Couples g cs cs') : Follows g (each Child.visit cs) (each Child.visit cs') := by
  induction h with
  | nil => exact .skip
  | cons _ h _ _ ih => exact .seq h ih
  | more h _ _ ih => exact .seq h ih
theorem Couples.gvisits {cs cs' : List Child} (h : Couples g cs cs') : Follows g (each Child.gvisit cs) (each Child.gvisit cs') := by
  induction h with
  | nil => exact .skip
  | cons _ _ h _ ih => exact .seq h ih
  | more _ h _ ih => exact .seq h ih
theorem Couples.filter {cs cs' : List Child} (h : Couples g cs cs') (p : Child → Bool) (hp : ∀ c c' : Child, c'.node.fld = c.node.fld → p c' = p c) :
    Couples g (cs.filter p) (cs'.filter p) := by
  induction h with
  | nil => exact .nil
  | cons hn h1 h2 _ ih =>
    rw [List.filter_cons, List.filter_cons, hp _ _ hn]
    split
    · exact .cons hn h1 h2 ih
    · exact ih
  | more h1 h2 _ ih =>
    rw [List.filter_cons]
    split
    · exact .more h1 h2 ih
    · exact ih

theorem genEnter_follows (m m' : Node) : Follows g (genEnter env m) (genEnter (env.on e) m') := by
  unfold genEnter
  refine .seq (.seq ?_ (.act fun _ _ _ _ => rfl)) ?_
  · refine ⟨fun s l lc o => ?_⟩
    cases m.info.line <;> cases m'.info.line <;> first | exact ⟨l, _, _, rfl⟩ | exact ⟨(_, l.2), _, _, rfl⟩
  · exact .when (.rd fun s _ _ _ => .nprint ..)
theorem gen_follows (m m' : Node) {cs cs' : List Child} (h : Couples g cs cs') : Follows g (gen env m cs) (gen (env.on e) m' cs') :=
  .seq (.seq (genEnter_follows m m') h.visits) (.act fun _ _ _ _ => rfl)

/-! ### The methods -/

section
variable {n : Node} {cs cs' : List Child}

theorem addTargets_follows (t : Node) : Follows g (addTargets t) (addTargets (t.moved g)) := by
  unfold addTargets
  rw [assignTargetWalk_moved]
  refine .eachNode _ fun x _ => ?_
  unfold addUserDefNode
  rw [moved_kind]
  split
  · exact .userDef _
  · exact .skip
theorem addUserDefNode_follows (x : Node) : Follows g (addUserDefNode x) (addUserDefNode (x.moved g)) := by
  unfold addUserDefNode
  rw [moved_kind]
  split
  · exact .userDef _
  · exact .skip

theorem addAlias_follows (x y : String) : Follows g (addAlias x y) (addAlias x y) := .seq (.act fun _ _ _ _ => rfl) (.userDef _)
theorem visitImport_follows (hn : Agrees env e g n) : Follows g (visitImport env n) (visitImport (env.on e) (n.moved g)) := by
  refine .gate hn ?_
  rw [moved_fields]
  refine .eachNode _ fun a _ => ?_
  unfold importName
  rw [aliasOf_moved]
  exact .seq (.seq (.module ..) (.member ..)) (.opt .skip fun _ => addAlias_follows _ _)
theorem visitImportFrom_follows (hn : Agrees env e g n) (m : Option String) (l : Nat) :
    Follows g (visitImportFrom env n m l) (visitImportFrom (env.on e) (n.moved g) m l) := by
  refine .opt .skip fun m => .when (.gate hn (.seq (.module ..) ?_))
  rw [moved_fields]
  refine .eachNode _ fun a _ => ?_
  unfold importFromName
  rw [aliasOf_moved]
  exact .seq (.when (.seq (.seq (.seq (.act fun _ _ _ _ => rfl) (.module ..)) (.member ..)) (.member ..))) (.opt .skip fun _ => addAlias_follows _ _)
theorem visitName_follows (id : String) : Follows g (visitName env id) (visitName (env.on e) id) :=
  .ite (.rd fun s _ _ _ => .ite (.print ..) (.ite (.print ..) (.found ..))) (.when (.seq (.flag _) (.print ..)))
theorem visitStarred_follows (ctx : Ctx) (h : Couples g cs cs') : Follows g (visitStarred env n ctx cs) (visitStarred (env.on e) (n.moved g) ctx cs') :=
  .seq (.when (.found ..)) (gen_follows _ _ h)

theorem checkUnpacking_follows (n : Node) : Follows g (checkUnpacking env n) (checkUnpacking (env.on e) (n.moved g)) := by
  unfold checkUnpacking
  rw [unpacks_moved]
  exact .when (.found ..)
theorem typecodeArgs_follows (n : Node) (k : Nat) : Follows g (typecodeArgs n k) (typecodeArgs (n.moved g) k) := by
  unfold typecodeArgs
  rw [moved_fields]
  refine .eachNode _ fun a _ => ?_
  rw [moved_strVal]
  exact .opt .skip fun _ => .typecode ..
theorem arg_moved (n : Node) (idx : Nat) : (((n.moved g).fields .args)[idx]?).bind Node.constVal = ((n.fields .args)[idx]?).bind Node.constVal := by
  rw [moved_fields, List.getElem?_map, moved_bind _ _ moved_constVal]
theorem encodingKws_follows (n : Node) : Follows g (addCodecsEncodingKws env n) (addCodecsEncodingKws (env.on e) (n.moved g)) := by
  unfold addCodecsEncodingKws
  rw [moved_fields]
  refine .eachNode _ fun a _ => ?_
  rw [isEncodingKw_moved, kwConst_moved]
  exact .when (.opt .skip fun _ => .encoding ..)
theorem checkCodecs_follows (f : String) (n : Node) : Follows g (checkCodecsFunction env f n) (checkCodecsFunction (env.on e) f (n.moved g)) := by
  refine .seq (.opt .skip fun idx => .seq ?_ ?_) (.opt .skip fun idxs => .each (fun idx => ?_) _)
  · rw [arg_moved]
    exact .opt .skip fun _ => .errorHandler ..
  · rw [moved_fields]
    refine .eachNode _ fun a _ => ?_
    rw [kwArg_moved, kwConst_moved]
    exact .when (.opt .skip fun _ => .errorHandler ..)
  · unfold addCodecsEncodingIdx
    rw [arg_moved]
    exact .opt (encodingKws_follows n) fun _ => .ite (.encoding ..) (.seq (.encoding ..) (encodingKws_follows n))
theorem callName_follows (n : Node) (id : String) : Follows g (callName env n id) (callName (env.on e) (n.moved g) id) := by
  refine .seq (.seq (.seq (.pushFn id) (.member ..)) (.rd fun s l lc o => ?_)) (.rd fun s l lc o => ?_)
  · show Follows g _ (match Dict.get? s.importMemMod id with | some m => _ | none => _)
    cases Dict.get? s.importMemMod id with
    | some m => exact checkCodecs_follows _ n
    | none =>
      show Follows g _ (match Dict.get? s.moduleAs id with | some m => _ | none => _)
      dsimp only
      cases Dict.get? s.moduleAs id with
      | some m => exact checkCodecs_follows _ n
      | none => exact .skip
  · rw [moved_fields, isInversePow_moved, List.length_map, List.isEmpty_map]
    exact .ite (.flag _) (.ite (typecodeArgs_follows n 6) (.ite (.when (.found ..)) (.when (.found ..))))
theorem callAttr_follows (n f : Node) (attr : String) : Follows g (callAttr env n f attr) (callAttr (env.on e) (n.moved g) (f.moved g) attr) := by
  refine .seq ?_ (.rd fun s l lc o => ?_)
  · unfold callAttrSpecial
    rw [isFormat27_moved, moved_fields]
    refine .ite (.when (.seq (.print ..) (.flag _))) (.when (.eachNode _ fun a _ => ?_))
    rw [moved_constVal]
    refine .opt .skip fun c => ?_
    cases c with
    | str t => exact .each (fun d => .strftime ..) _
    | _ => exact .raise _
  · show Follows g _ (V.lift (dottedAttr s.moduleAs (f.moved g)) _)
    rw [dottedAttr_moved]
    exact .lift fun name => .seq (.seq (.pushFn name) (checkCodecs_follows name n)) (.when (typecodeArgs_follows n 12))
theorem visitCall_follows (hn : Agrees env e g n) (h : Couples g cs cs') : Follows g (visitCall env n cs) (visitCall (env.on e) (n.moved g) cs') := by
  refine .gate hn (.seq (.seq (.seq ?_ (checkUnpacking_follows n)) (gen_follows _ _ h)) .popFn)
  rw [moved_field]
  refine .optNode .skip fun f _ => ?_
  unfold callFunc
  rw [moved_kind]
  split
  · exact callName_follows n _
  · exact callAttr_follows n f _
  · exact .skip

theorem attrModules_follows (full : List (Option String)) (dot : String) (l l' : Nat) :
    ∀ k i, Follows g (attrModules env full dot l k i) (attrModules (env.on e) full dot l' k i)
  | 0, _ => .skip
  | k + 1, i => .rd fun s _ _ _ => .opt .skip fun m =>
      .seq (.rd fun s _ _ _ => .ite (.module ..) (.opt .skip fun _ => .member ..)) (attrModules_follows full dot l l' k (i + 1))
theorem attrNameRes_follows (full : List (Option String)) (l l' : Nat) : Follows g (attrNameRes env full l) (attrNameRes (env.on e) full l') := by
  refine .rd fun s _ _ _ => .opt .skip fun res => .seq (.opt (.member ..) fun _ => .member ..) ?_
  unfold attrTwoTier
  split
  · exact .opt .skip fun _ => .member ..
  · exact .skip
theorem visitAttribute_follows (n : Node) (h : Couples g cs cs') : Follows g (visitAttribute env n cs) (visitAttribute (env.on e) (n.moved g) cs') := by
  refine .seq (.rd fun s l lc o => ?_) (gen_follows _ _ h)
  show Follows g _ (V.lift (attributeName s.moduleAs (n.moved g)) _)
  rw [attributeName_moved]
  exact .lift fun full => .when (.seq (.seq (attrModules_follows ..) (.member ..)) (attrNameRes_follows ..))
theorem visitKeyword_follows (a : Option String) (h : Couples g cs cs') : Follows g (visitKeyword env n a cs) (visitKeyword (env.on e) (n.moved g) a cs') :=
  .rd fun s _ _ _ => .seq (.each (fun f => .kwargs ..) _) (.when (gen_follows _ _ h))

theorem nameOrAttr_moved (s : S) (n : Node) (l lc o) : nameOrAttr (s.placed g l lc o) (n.moved g) = nameOrAttr s n := by
  unfold nameOrAttr
  rw [moved_kind, show (s.placed g l lc o).moduleAs = s.moduleAs from rfl, dottedAttr_moved]
theorem isNoneOrName_moved (s : S) (n : Node) (l lc o) : isNoneOrName (s.placed g l lc o) (n.moved g) = isNoneOrName s n := by
  unfold isNoneOrName
  rw [isNoneNode_moved, nameOrAttr_moved]
  rfl
theorem isUnionType_moved (s : S) (n : Node) (l lc o) : isUnionType (s.placed g l lc o) (n.moved g) = isUnionType s n := by
  unfold isUnionType
  rw [nameOrAttr_moved]
  rfl
theorem resolvesTo_moved (s : S) (types : List String) (n : Node) (l lc o) : resolvesTo (s.placed g l lc o) types (n.moved g) = resolvesTo s types n := by
  unfold resolvesTo resolveFullName
  rw [show (s.placed g l lc o).moduleAs = s.moduleAs from rfl, plainName_moved]
  rfl
theorem isDictUnion_moved (s : S) (a b : Node) (l lc o) : isDictUnion (env.on e) (s.placed g l lc o) (a.moved g) (b.moved g) = isDictUnion env s a b := by
  unfold isDictUnion
  rw [show (s.placed g l lc o).nameRes = s.nameRes from rfl, isDict_moved, isDict_moved, resolvesTo_moved, resolvesTo_moved]
  rfl
theorem visitBinOp_follows (n : Node) (h : Couples g cs cs') : Follows g (visitBinOp env n cs) (visitBinOp (env.on e) (n.moved g) cs') := by
  unfold visitBinOp
  rw [operator_moved, moved_field, moved_field]
  refine .seq (.seq (.when (.optNode .skip fun l _ => ?_)) (.when (.optNode .skip fun a _ => .optNode .skip fun b _ => ?_))) (gen_follows _ _ h)
  · unfold binMod
    rw [isBytes_moved, isBytearrayCall_moved]
    exact .seq (.when (.found ..)) (.when (.found ..))
  · refine .seq (.rd fun s _ _ _ => ?_) (.when (.rd fun s _ _ _ => ?_))
    · rw [isDictUnion_moved]
      exact .lift fun _ => .when (.found ..)
    · rw [isNoneOrName_moved, isNoneOrName_moved]
      exact .lift fun _ => .when (.found ..)

theorem visitConstant_follows (hi : ∀ u v, g.uid u = g.uid v → u = v) (n : Node) (c : Const) :
    Follows g (visitConstant env n c) (visitConstant (env.on e) (n.moved g) c) := by
  cases c with
  | bytes t => exact .seq (.found ..) (.each (fun d => .bytesDir ..) _)
  | bool b => exact .seq (.flag _) (.print ..)
  | ellipsis =>
    show Follows g (visitEllipsis env n) (visitEllipsis (env.on e) (n.moved g))
    unfold visitEllipsis
    refine .rd fun s _ _ _ => ?_
    have : ((s.ellipsisInSlices.map g.uid).contains (n.moved g).info.uid) = s.ellipsisInSlices.contains n.info.uid := by
      rw [moved_uid, Bool.eq_iff_iff]
      simp only [List.contains_iff_mem, List.mem_map]
      exact ⟨fun ⟨u, hu, h⟩ => hi _ _ h ▸ hu, fun h => ⟨_, h, rfl⟩⟩
    show Follows g _ (V.when (!(s.ellipsisInSlices.map g.uid).contains (n.moved g).info.uid) _)
    rw [this]
    exact .when (.found ..)
  | _ => exact .skip

theorem selfDocPair_moved (s : S) (a b : Node) (l lc o) : selfDocPair (s.placed g l lc o) (a.moved g) (b.moved g) = selfDocPair s a b := by
  unfold selfDocPair
  rw [moved_strVal, moved_kind, moved_field, show (s.placed g l lc o).moduleAs = s.moduleAs from rfl]
  cases b.field .value with
  | none => rfl
  | some x => simp only [Option.map_some, extractFstring_moved]
theorem selfDoc_moved (s : S) (l lc o) : ∀ ks : List Node, selfDoc (s.placed g l lc o) (ks.map (moved g)) = selfDoc s ks
  | [] => rfl
  | [_] => rfl
  | a :: b :: ks => by
    have := selfDoc_moved s l lc o (b :: ks)
    simp only [List.map_cons] at this
    simp only [List.map_cons, selfDoc, selfDocPair_moved, this]
theorem visitJoinedStr_follows (n : Node) (h : Couples g cs cs') : Follows g (visitJoinedStr env n cs) (visitJoinedStr (env.on e) (n.moved g) cs') := by
  refine .seq (.seq (.found ..) (.when (.rd fun s _ _ _ => ?_))) (gen_follows _ _ h)
  rw [moved_fields, selfDoc_moved]
  exact .lift fun _ => .when (.found ..)

theorem addNameResAssign_follows (n : Node) : Follows g (addNameResAssign n) (addNameResAssign (n.moved g)) := by
  unfold addNameResAssign
  rw [moved_field, moved_filter n _ fun k => by simp only [moved_fld]]
  refine .optNode .skip fun v _ => .rd fun s l lc o => ?_
  rw [show (s.placed g l lc o).moduleAs = s.moduleAs from rfl, assignedName_moved]
  refine .lift fun a => .eachNode _ fun t _ => ?_
  unfold bindTarget
  rw [moved_nameId]
  refine .opt .skip fun id => ?_
  cases a with
  | value v => exact .nameRes ..
  | type v => exact .nameResType ..
  | nothing => exact .skip
theorem visitAssign_follows (hn : Agrees env e g n) (h : Couples g cs cs') : Follows g (visitAssign env n cs) (visitAssign (env.on e) (n.moved g) cs') := by
  refine .gate hn (.seq (.seq ?_ (addNameResAssign_follows n)) (gen_follows _ _ h))
  rw [moved_fields]
  exact .eachNode _ fun t _ => addTargets_follows t
theorem visitAugAssign_follows (hn : Agrees env e g n) (h : Couples g cs cs') : Follows g (visitAugAssign env n cs) (visitAugAssign (env.on e) (n.moved g) cs') := by
  refine .gate hn ?_
  rw [moved_field, moved_field, operator_moved]
  refine .seq (.seq (.seq (.optNode .skip fun t _ => addUserDefNode_follows t) (addNameResAssign_follows n))
    (.when (.optNode .skip fun t _ => .optNode .skip fun v _ => .rd fun s l lc o => ?_))) (gen_follows _ _ h)
  rw [show (s.placed g l lc o).nameRes = s.nameRes from rfl, isDict_moved, isDict_moved, resolvesTo_moved, isUnionType_moved, isUnionType_moved]
  exact .lift fun b => .ite (.lift fun a => .lift fun b => .when (.found ..)) (.when (.lift fun b => .when (.found ..)))
theorem visitAnnAssign_follows (hn : Agrees env e g n) (h : Couples g cs cs') : Follows g (visitAnnAssign env n cs) (visitAnnAssign (env.on e) (n.moved g) cs') := by
  refine .gate hn ?_
  rw [moved_field, moved_field]
  refine .seq (.seq (.seq (.seq (.seq (.optNode .skip fun t _ => addUserDefNode_follows t) (addNameResAssign_follows n)) (.alt (gen_follows _ _ h) (.flag _)))
    (.flag _)) (.found ..)) (.optNode .skip fun a _ => ?_)
  unfold annKind
  rw [isAnn_moved, isAnn_moved]
  exact .ite (.found ..) (.when (.found ..))

/-! Functions and classes. -/

theorem checkRelaxed_follows (n : Node) (hd : ∀ d ∈ n.fields .decoratorList, Agrees env e g d) :
    Follows g (checkRelaxed env n) (checkRelaxed (env.on e) (n.moved g)) := by
  unfold checkRelaxed
  rw [moved_fields]
  refine .eachNode _ fun d h => .gate (hd d h) ?_
  rw [decoRoot_moved, walk_moved, any_moved _ fun k => by rw [isNameOrAttr_moved]]
  exact .when (.found ..)
theorem decos_follows {a a' : Nat → V} (n : Node) (hd : ∀ d ∈ n.fields .decoratorList, Agrees env e g d) (h : ∀ l l', Follows g (a l) (a' l')) :
    Follows g (V.opt (decoLine env n) V.skip a) (V.opt (decoLine (env.on e) (n.moved g)) V.skip a') := by
  unfold decoLine
  rw [moved_fields]
  generalize n.fields .decoratorList = l at hd
  induction l with
  | nil => exact .skip
  | cons d l ih =>
    rw [List.map_cons, List.find?_cons, List.find?_cons, (hd d (by simp)).noLine]
    cases env.isNoLine d.line with
    | false => exact h _ _
    | true => exact ih fun x hx => hd x (by simp [hx])
theorem funcDecos_follows (n : Node) (hd : ∀ d ∈ n.fields .decoratorList, Agrees env e g d) :
    Follows g (funcDecos env n) (funcDecos (env.on e) (n.moved g)) := by
  refine decos_follows n hd fun l l' => .seq (.seq (.found ..) (checkRelaxed_follows n hd)) ?_
  unfold checkUserFuncDecos
  rw [moved_fields]
  refine .eachNode _ fun d h => .gate (hd d h) (.rd fun s _ _ _ => ?_)
  rw [nameOrAttr_moved]
  exact .lift fun _ => .opt .skip fun _ => .deco ..
theorem dirFuncs_follows (hi : (env.on e).isInitFile = env.isInitFile) (n : Node) (name : String) :
    Follows g (dirFuncs env n name) (dirFuncs (env.on e) (n.moved g) name) := by
  unfold dirFuncs
  rw [moved_field]
  refine .optNode .skip fun a _ => .rd fun s l lc o => ?_
  rw [moved_fields, moved_fields, moved_fields, moved_field, hi, List.length_map, List.isEmpty_map, List.isEmpty_map, Option.isNone_map]
  exact .when (.ite (.found ..) (.when (.found ..)))
theorem argAnns_follows (n : Node) : ∀ l : List Node, Follows g (argAnns env n l) (argAnns (env.on e) (n.moved g) (l.map (moved g)))
  | [] => .skip
  | a :: as => by
    simp only [List.map_cons, argAnns]
    rw [moved_field]
    refine .optNode (argAnns_follows n as) fun ann _ => .seq (.found ..) (.rd fun s l lc o => ?_)
    have : isLiteralAnn (s.placed g l lc o) (ann.moved g) = isLiteralAnn s ann := by
      unfold isLiteralAnn
      rw [isAnn_moved, show (s.placed g l lc o).moduleAs = s.moduleAs from rfl, dottedAttr_moved]
    rw [this]
    exact .lift fun b => .alt (.alt (.found ..) (.flag _)) (argAnns_follows n as)
theorem handleFunctionDef_follows (hi : (env.on e).isInitFile = env.isInitFile) (hd : ∀ d ∈ n.fields .decoratorList, Agrees env e g d)
    (name : String) (h : Couples g cs cs') : Follows g (handleFunctionDef env n name cs) (handleFunctionDef (env.on e) (n.moved g) name cs') := by
  refine .seq (.seq (.seq (.seq (.userDef _) (dirFuncs_follows hi n name)) (funcDecos_follows n hd)) (.scope (gen_follows _ _ ?_))) ?_
  · exact h.filter _ fun c c' hc => by rw [hc]
  · unfold funcAnns
    rw [moved_field, Option.isSome_map, paramsOf_moved]
    exact .alt (.found ..) (argAnns_follows n _)
theorem visitFunctionDef_follows (hi : (env.on e).isInitFile = env.isInitFile) (hn : Agrees env e g n) (hd : ∀ d ∈ n.fields .decoratorList, Agrees env e g d)
    (name : String) (h : Couples g cs cs') : Follows g (visitFunctionDef env n name cs) (visitFunctionDef (env.on e) (n.moved g) name cs') :=
  .gate hn (.rd fun s _ _ _ => .seq (handleFunctionDef_follows hi hd name h) (.act fun _ _ _ _ => rfl))
theorem visitAsyncFunctionDef_follows (hi : (env.on e).isInitFile = env.isInitFile) (hn : Agrees env e g n) (hd : ∀ d ∈ n.fields .decoratorList, Agrees env e g d)
    (name : String) (h : Couples g cs cs') : Follows g (visitAsyncFunctionDef env n name cs) (visitAsyncFunctionDef (env.on e) (n.moved g) name cs') :=
  .gate hn (.rd fun s _ _ _ => .seq (.seq (.seq (handleFunctionDef_follows hi hd name h) (.found ..)) (.rd fun t _ _ _ => .when (.found ..))) (.act fun _ _ _ _ => rfl))
theorem visitAwait_follows (hn : Agrees env e g n) (h : Couples g cs cs') : Follows g (visitAwait env n cs) (visitAwait (env.on e) (n.moved g) cs') :=
  .gate hn (.seq (.seq (.found ..) (.act fun _ _ _ _ => rfl)) (gen_follows _ _ h))
theorem visitClassDef_follows (hn : Agrees env e g n) (hd : ∀ d ∈ n.fields .decoratorList, Agrees env e g d)
    (name : String) (h : Couples g cs cs') : Follows g (visitClassDef env n name cs) (visitClassDef (env.on e) (n.moved g) name cs') := by
  refine .gate hn (.seq (.seq (.seq (.seq (.seq (.userDef _) (.nameResType _ _)) ?_) ?_) (gen_follows _ _ h)) ?_)
  · exact decos_follows n hd fun l l' => .seq (.found ..) (checkRelaxed_follows n hd)
  · unfold metaclassKw
    rw [moved_fields]
    refine .eachNode _ fun k _ => ?_
    rw [kwArg_moved]
    exact .when (.found ..)
  · exact (h.filter _ fun c c' hc => by rw [hc]).gvisits
theorem visitNamedExpr_follows (hn : Agrees env e g n) (h : Couples g cs cs') : Follows g (visitNamedExpr env n cs) (visitNamedExpr (env.on e) (n.moved g) cs') := by
  refine .gate hn (.seq (.seq ?_ (.found ..)) (gen_follows _ _ h))
  rw [moved_field]
  exact .optNode .skip fun t _ => addUserDefNode_follows t
theorem visitArguments_follows (n : Node) (h : Couples g cs cs') : Follows g (visitArguments env n cs) (visitArguments (env.on e) (n.moved g) cs') := by
  unfold visitArguments
  simp only [moved_fields, List.isEmpty_map, ← List.map_append]
  refine .seq (.seq (.seq (.when (.found ..)) (.when (.found ..))) (.eachNode _ fun a _ => ?_)) (gen_follows _ _ h)
  rw [argName_moved]
  exact .opt .skip fun _ => .userDef _

/-! Statements. -/

theorem namesAsMembers_follows (x : Node) : Follows g (namesAsMembers env x) (namesAsMembers (env.on e) (x.moved g)) := by
  unfold namesAsMembers
  rw [walk_moved]
  refine .eachNode _ fun m _ => ?_
  rw [moved_nameId]
  exact .opt .skip fun _ => .member ..
theorem visitRaise_follows (hn : Agrees env e g n) (h : Couples g cs cs') : Follows g (visitRaise env n cs) (visitRaise (env.on e) (n.moved g) cs') := by
  refine .gate hn ?_
  rw [moved_field, moved_field]
  refine .seq (.seq (.seq (.optNode .skip fun c _ => ?_) (.optNode .skip fun c _ => namesAsMembers_follows c)) (.optNode .skip fun c _ => namesAsMembers_follows c))
    (gen_follows _ _ h)
  unfold raiseCauseOf
  rw [isNoneNode_moved]
  exact .seq (.found ..) (.when (.found ..))
theorem visitExceptHandler_follows (hn : Agrees env e g n) {name : Option String} (hk : n.kind = .exceptHandler name) (h : Couples g cs cs') :
    Follows g (visitExceptHandler env n name cs) (visitExceptHandler (env.on e) (n.moved g) name cs') := by
  refine .gate hn ?_
  rw [hn.star ⟨_, hk⟩, moved_field]
  exact .seq (.when (.found ..)) (.scope (.seq (.seq (.opt .skip fun _ => .userDef _) (.optNode .skip fun c _ => namesAsMembers_follows c)) (gen_follows _ _ h)))
theorem visitComp_follows (n : Node) (h : Couples g cs cs') : Follows g (visitComp env n cs) (visitComp (env.on e) (n.moved g) cs') := by
  refine .scope (.seq ?_ (gen_follows _ _ h))
  unfold compTargets
  rw [moved_fields]
  refine .eachNode _ fun c _ => ?_
  rw [moved_field]
  exact .optNode .skip fun t _ => addTargets_follows t
theorem visitComprehension_follows (n : Node) (b : Bool) (h : Couples g cs cs') : Follows g (visitComprehension env n b cs) (visitComprehension (env.on e) (n.moved g) b cs') :=
  .seq (.when (.found ..)) (.rd fun s _ _ _ => .seq (.seq (gen_follows _ _ h) (.rd fun t _ _ _ => .when (.found ..))) (.act fun _ _ _ _ => rfl))
theorem visitContinue_follows (n : Node) : Follows g (visitContinue env n) (visitContinue (env.on e) (n.moved g)) := .rd fun s _ _ _ => .when (.found ..)
theorem handleWith_follows (hn : Agrees env e g n) (hk : n.kind = .with ∨ n.kind = .asyncWith) (h : Couples g cs cs') :
    Follows g (handleWith env n cs) (handleWith (env.on e) (n.moved g) cs') := by
  refine .scope (.seq (.seq ?_ ?_) (gen_follows _ _ h))
  · rw [moved_fields]
    refine .eachNode _ fun w _ => ?_
    rw [moved_field]
    exact .optNode .skip fun t _ => addTargets_follows t
  · rw [moved_fields, List.length_map]
    by_cases hl : 1 < (n.fields .items).length
    · unfold multiWith
      rw [hn.paren hk hl]
      exact .when (.seq (.found ..) (.when (.found ..)))
    · rw [decide_eq_false hl]
      exact .skip
theorem visitDisplay_follows (n : Node) (h : Couples g cs cs') : Follows g (visitDisplay env n cs) (visitDisplay (env.on e) (n.moved g) cs') :=
  .seq (checkUnpacking_follows n) (gen_follows _ _ h)
theorem genericType_follows (name : String) : Follows g (genericType env name) (genericType (env.on e) name) :=
  .alt (.rd fun s _ _ _ => .ite (.print ..) (.found ..)) (.flag _)
theorem markEllipsis_follows (n : Node) : Follows g (markEllipsis n) (markEllipsis (n.moved g)) := by
  unfold markEllipsis
  rw [isEllipsisNode_moved, moved_uid]
  exact .when (.upd fun s l lc o => ⟨l, lc, o, by simp [S.placed]⟩)
theorem markSubscript_follows (sl : Node) : Follows g (markSubscript sl) (markSubscript (sl.moved g)) := by
  refine .seq (markEllipsis_follows sl) ?_
  rw [moved_kind]
  split
  · rw [moved_fields]
    exact .eachNode _ fun x _ => markEllipsis_follows x
  · exact .skip
theorem markSlice_follows (sl : Node) : Follows g (markSlice sl) (markSlice (sl.moved g)) := by
  unfold markSlice
  rw [moved_kind]
  split
  · rw [moved_fields]
    exact .eachNode _ fun x _ => markEllipsis_follows x
  · rw [moved_field]
    exact .optNode .skip fun x _ => markSubscript_follows x
  · exact markSubscript_follows sl
theorem visitSubscript_follows (hn : Agrees env e g n) (h : Couples g cs cs') : Follows g (visitSubscript env n cs) (visitSubscript (env.on e) (n.moved g) cs') := by
  refine .gate hn ?_
  rw [moved_field, moved_field]
  refine .seq (.seq (.optNode .skip fun v _ => .rd fun s _ _ _ => ?_) (.optNode .skip fun sl _ => markSlice_follows sl)) (gen_follows _ _ h)
  rw [nameOrAttr_moved]
  exact .lift fun name => .opt .skip fun coll => .rd fun s _ _ _ => .ite (genericType_follows _)
    (.opt (.opt .skip fun ts => .each (fun t => .when (genericType_follows _)) _) fun _ => .when (genericType_follows _))
theorem handleFor_follows (hn : Agrees env e g n) (h : Couples g cs cs') : Follows g (handleFor env n cs) (handleFor (env.on e) (n.moved g) cs') := by
  refine .gate hn (.seq (.act fun _ _ _ _ => rfl) (.scope (.seq (.seq (.seq ?_ ?_) (gen_follows _ _ h)) (.act fun _ _ _ _ => rfl))))
  · rw [moved_field]
    exact .optNode .skip fun t _ => addTargets_follows t
  · unfold forDict
    rw [moved_field, moved_field, moved_bind _ _ moved_nameId]
    refine .opt .skip fun id => .optNode .skip fun it _ => .rd fun s l lc o => ?_
    rw [eltsOf_moved, show (s.placed g l lc o).nameRes = s.nameRes from rfl, anyDict_moved]
    exact .lift fun b => .when (.nameRes ..)
theorem visitWhile_follows (hn : Agrees env e g n) (h : Couples g cs cs') : Follows g (visitWhile env n cs) (visitWhile (env.on e) (n.moved g) cs') :=
  .gate hn (.seq (.seq (.act fun _ _ _ _ => rfl) (gen_follows _ _ h)) (.act fun _ _ _ _ => rfl))
theorem visitTry_follows (hn : Agrees env e g n) (h : Couples g cs cs') : Follows g (visitTry env n cs) (visitTry (env.on e) (n.moved g) cs') :=
  .gate hn (.seq (.seq (.seq (.act fun _ _ _ _ => rfl) (h.filter _ fun c c' hc => by rw [hc]).visits) (.act fun _ _ _ _ => rfl)) (gen_follows _ _ h))
theorem visitOp_follows (n : Node) (op : Op) (h : Couples g cs cs') : Follows g (visitOp env n op cs) (visitOp (env.on e) (n.moved g) op cs') := by
  cases op <;> first | exact .skip | exact gen_follows _ _ h | exact .seq (.found ..) (gen_follows _ _ h)

theorem visitAlg_follows_of (hi : (env.on e).isInitFile = env.isInitFile) (hu : ∀ u v, g.uid u = g.uid v → u = v) (n : Node)
    (hs : Markable n.kind → Agrees env e g n) (hd : ∀ d ∈ n.fields .decoratorList, Agrees env e g d) (h : Couples g cs cs') : Follows g (visitAlg env n cs) (visitAlg (env.on e) (n.moved g) cs') := by
  unfold visitAlg
  rw [moved_kind]
  split
  · exact visitImport_follows (hs (by rename_i hk; rw [hk]; trivial))
  · exact visitImportFrom_follows (hs (by rename_i hk; rw [hk]; trivial)) _ _
  · exact visitName_follows _
  · exact visitStarred_follows _ h
  · exact visitCall_follows (hs (by rename_i hk; rw [hk]; trivial)) h
  · exact visitAttribute_follows n h
  · exact visitKeyword_follows _ h
  · exact visitBinOp_follows n h
  · exact visitConstant_follows hu n _
  · exact visitJoinedStr_follows n h
  · exact visitAssign_follows (hs (by rename_i hk; rw [hk]; trivial)) h
  · exact visitAugAssign_follows (hs (by rename_i hk; rw [hk]; trivial)) h
  · exact visitAnnAssign_follows (hs (by rename_i hk; rw [hk]; trivial)) h
  · exact visitFunctionDef_follows hi (hs (by rename_i hk; rw [hk]; trivial)) hd _ h
  · exact visitAsyncFunctionDef_follows hi (hs (by rename_i hk; rw [hk]; trivial)) hd _ h
  · exact .scope (gen_follows _ _ h)
  · exact visitAwait_follows (hs (by rename_i hk; rw [hk]; trivial)) h
  · exact visitClassDef_follows (hs (by rename_i hk; rw [hk]; trivial)) hd _ h
  · exact visitNamedExpr_follows (hs (by rename_i hk; rw [hk]; trivial)) h
  · exact visitArguments_follows n h
  · exact .gate (hs (by rename_i hk; rw [hk]; trivial)) (.seq (.found ..) (gen_follows _ _ h))
  · exact .gate (hs (by rename_i hk; rw [hk]; trivial)) (.seq (.found ..) (gen_follows _ _ h))
  · exact .gate (hs (by rename_i hk; rw [hk]; trivial)) (.seq (.act fun _ _ _ _ => rfl) (gen_follows _ _ h))
  · exact visitRaise_follows (hs (by rename_i hk; rw [hk]; trivial)) h
  · exact visitExceptHandler_follows (hs (by rename_i hk; rw [hk]; trivial)) (by assumption) h
  · exact visitComp_follows n h
  · exact visitComp_follows n h
  · exact .seq (.found ..) (visitComp_follows n h)
  · exact .seq (.found ..) (visitComp_follows n h)
  · exact visitComprehension_follows n _ h
  · exact visitContinue_follows n
  · exact .gate (hs (by rename_i hk; rw [hk]; trivial)) (.seq (.found ..) (handleWith_follows (hs (by rename_i hk; rw [hk]; trivial)) (.inl (by assumption)) h))
  · exact .gate (hs (by rename_i hk; rw [hk]; trivial)) (.seq (.found ..) (handleWith_follows (hs (by rename_i hk; rw [hk]; trivial)) (.inr (by assumption)) h))
  · exact visitDisplay_follows n h
  · exact visitDisplay_follows n h
  · exact visitDisplay_follows n h
  · exact .seq (.found ..) (visitDisplay_follows n h)
  · exact visitSubscript_follows (hs (by rename_i hk; rw [hk]; trivial)) h
  · exact .gate (hs (by rename_i hk; rw [hk]; trivial)) (.seq (.found ..) (gen_follows _ _ h))
  · exact .gate (hs (by rename_i hk; rw [hk]; trivial)) (gen_follows _ _ h)
  · exact .gate (hs (by rename_i hk; rw [hk]; trivial)) (gen_follows _ _ h)
  · exact .gate (hs (by rename_i hk; rw [hk]; trivial)) (gen_follows _ _ h)
  · exact handleFor_follows (hs (by rename_i hk; rw [hk]; trivial)) h
  · exact .gate (hs (by rename_i hk; rw [hk]; trivial)) (.seq (.found ..) (handleFor_follows (hs (by rename_i hk; rw [hk]; trivial)) h))
  · exact visitWhile_follows (hs (by rename_i hk; rw [hk]; trivial)) h
  · exact visitTry_follows (hs (by rename_i hk; rw [hk]; trivial)) h
  · exact .gate (hs (by rename_i hk; rw [hk]; trivial)) (.seq (.found ..) (gen_follows _ _ h))
  · exact visitOp_follows n _ h
  · exact .skip
  · exact .skip
  · exact .skip
  · exact gen_follows _ _ h

theorem visitAlg_follows (hi : (env.on e).isInitFile = env.isInitFile) (hu : ∀ u v, g.uid u = g.uid v → u = v) (n : Node)
    (hn : ∀ k, In k n → Agrees env e g k) (h : Couples g cs cs') : Follows g (visitAlg env n cs) (visitAlg (env.on e) (n.moved g) cs') :=
  visitAlg_follows_of hi hu n (fun _ => hn n (.self n)) (fun d h => hn d (.kid (List.mem_filter.mp h).1 (.self d))) h
end

mutual
theorem visitNode_follows (hi : (env.on e).isInitFile = env.isInitFile) (hu : ∀ u v, g.uid u = g.uid v → u = v) :
    (n : Node) → (∀ k, In k n → Agrees env e g k) →
      Follows g (visitNode env n).1 (visitNode (env.on e) (n.moved g)).1 ∧ Follows g (visitNode env n).2 (visitNode (env.on e) (n.moved g)).2
  | .mk i ks, hn => by
    have hk := visitKids_follows hi hu ks fun k hk m hm => hn m (.kid hk hm)
    have := visitAlg_follows hi hu (.mk i ks) hn hk
    simp only [Node.moved] at this ⊢
    simp only [visitNode]
    exact ⟨this, gen_follows _ _ hk⟩
theorem visitKids_follows (hi : (env.on e).isInitFile = env.isInitFile) (hu : ∀ u v, g.uid u = g.uid v → u = v) :
    (ks : List Node) → (∀ k ∈ ks, ∀ m, In m k → Agrees env e g m) → Couples g (visitKids env ks) (visitKids (env.on e) (movedAll g ks))
  | [], _ => .nil
  | k :: ks, h => by
    have h1 := visitNode_follows hi hu k (h k (by simp))
    exact .cons (moved_fld k) h1.1 h1.2 (visitKids_follows hi hu ks fun x hx => h x (by simp [hx]))
end

theorem tour_follows (hi : (env.on e).isInitFile = env.isInitFile) (hu : ∀ u v, g.uid u = g.uid v → u = v) (n : Node)
    (hn : ∀ k, In k n → Agrees env e g k) : Follows g (tour env n) (tour (env.on e) (n.moved g)) := by
  refine .seq (visitNode_follows hi hu n hn).1 (.rd fun s _ _ _ => .each (fun u => .rd fun s _ _ _ => ?_) _)
  exact .seq (.seq (.seq (.each (fun _ => .print ..) _) (.act fun _ _ _ _ => rfl)) (.each (fun _ => .print ..) _)) (.act fun _ _ _ _ => rfl)

/-! ### The minimum versions -/

/-- The same error, or the same versions and states that differ in positions and output only. -/
def AlignedM (g : Layout) : Except Err (S × Req) → Except Err (S × Req) → Prop
  | .ok (t, m), .ok (t', m') => m' = m ∧ ∃ l lc o, t' = t.placed g l lc o
  | .error e, .error e' => e = e'
  | _, _ => False

/-- Steps that do the same up to positions and output. -/
structure FollowsM (g : Layout) (f f' : M) : Prop where
  run : ∀ s l lc o m, AlignedM g (f (s, m)) (f' (s.placed g l lc o, m))

namespace FollowsM
theorem pure : FollowsM g (fun x => .ok x) (fun x => .ok x) := ⟨fun _ l lc o _ => ⟨rfl, l, lc, o, rfl⟩⟩
theorem raise (x : Err) : FollowsM g (fun _ => .error x) (fun _ => .error x) := ⟨fun _ _ _ _ _ => rfl⟩
theorem thenM {a a' b b' : M} (ha : FollowsM g a a') (hb : FollowsM g b b') : FollowsM g (thenM a b) (Vermin.thenM a' b') := ⟨fun s l lc o m => by
  have h := ha.run s l lc o m
  unfold Vermin.thenM
  revert h
  cases a (s, m) with
  | ok t =>
    cases a' (s.placed g l lc o, m) with
    | ok t' =>
      obtain ⟨t, m⟩ := t
      obtain ⟨t', m'⟩ := t'
      rintro ⟨rfl, l, lc, o, rfl⟩
      exact hb.run t l lc o _
    | error e => exact False.elim
  | error e =>
    cases a' (s.placed g l lc o, m) with
    | ok t' => exact False.elim
    | error e' => exact id⟩
theorem eachM {α : Type} {f f' : α → M} (h : ∀ x, FollowsM g (f x) (f' x)) : ∀ l, FollowsM g (eachM f l) (Vermin.eachM f' l)
  | [] => pure
  | x :: l => thenM (h x) (eachM h l)
theorem entity (r : Req) (info : Option String) (ent : Option Ent) : FollowsM g (addEntity env r info ent) (addEntity (env.on e) r info ent) := ⟨fun s l lc o m => by
  have h : Follows g (infoStep env r info ent) (infoStep (env.on e) r info ent) := by
    show Follows g (V.lift (violates env (some r)) _) (V.lift (violates env (some r)) _)
    exact .lift fun _ => .when (.opt .skip fun i => .seq (.act fun _ _ _ _ => rfl) (.opt .skip fun _ => .print ..))
  have := h.run s l lc o
  unfold addEntity
  dsimp only
  revert this
  cases infoStep env r info ent s with
  | ok t =>
    cases infoStep (env.on e) r info ent (s.placed g l lc o) with
    | ok t' =>
      rintro ⟨l, lc, o, rfl⟩
      show AlignedM g _ (match combineVersions env.cfg.ignoreIncomp m r (some t.infoVersions) with | .ok m => _ | .error e => _)
      dsimp only
      cases combineVersions env.cfg.ignoreIncomp m r (some t.infoVersions) with
      | ok m => exact ⟨rfl, l, lc, o, rfl⟩
      | error e => rfl
    | error e => exact False.elim
  | error x =>
    cases infoStep (env.on e) r info ent (s.placed g l lc o) with
    | ok t' => exact False.elim
    | error e' => exact id⟩
theorem rule (r : Option Req) (info : String) (ent : Ent) : FollowsM g (ruleM env r info ent) (ruleM (env.on e) r info ent) := by
  cases r with
  | none => exact pure
  | some r => exact entity ..
end FollowsM

theorem encodingEntryM_follows (c : Const) (x : EncKey × Req) : FollowsM g (encodingEntryM env c x) (encodingEntryM (env.on e) c x) := by
  cases c with
  | str n =>
    refine ⟨fun s l lc o m => ?_⟩
    unfold encodingEntryM
    dsimp only
    split
    · exact (FollowsM.entity _ _ _).run s l lc o m
    · exact ⟨rfl, l, lc, o, rfl⟩
  | bytes t =>
    obtain ⟨k, r⟩ := x
    cases k with
    | text _ => exact .raise _
    | names _ => exact .pure
  | _ => exact .raise _

theorem entitiesM_follows (s : S) : FollowsM g (entitiesM env s) (entitiesM (env.on e) s) := by
  refine .thenM (.eachM (fun _ => .rule ..) _) (.thenM (.eachM (fun _ => .rule ..) _) (.thenM (.eachM (fun _ => .rule ..) _)
    (.thenM (.eachM (fun c => ?_) _) (.thenM (.eachM (fun c => .eachM (encodingEntryM_follows c) _) _) (.thenM (.eachM (fun _ => .rule ..) _)
    (.thenM (.eachM (fun _ => .rule ..) _) (.thenM (.eachM (fun _ => .rule ..) _) (.eachM (fun _ => .rule ..) _))))))))
  cases c with
  | str n => exact .rule ..
  | _ => exact .pure

theorem minimumVersions_follows (s : S) (l lc o) : AlignedM g (minimumVersions env s) (minimumVersions (env.on e) (s.placed g l lc o)) := by
  have hp : FollowsM g (printM env) (printM (env.on e)) := ⟨fun s l lc o m => by
    unfold printM
    dsimp only
    show AlignedM g (if s.has .printv3 then _ else _) (if s.has .printv3 then _ else _)
    cases s.has .printv3 with
    | false => exact ⟨rfl, l, lc, o, rfl⟩
    | true =>
      have h : Follows g (vv env "print(expr)" (from23 0 0) .hide) (vv (env.on e) "print(expr)" (from23 0 0) .hide) := .print ..
      have := h.run s l lc o
      simp only [if_true]
      revert this
      cases (vv env "print(expr)" (from23 0 0) .hide : V) s with
      | ok t =>
        cases (vv (env.on e) "print(expr)" (from23 0 0) .hide : V) (s.placed g l lc o) with
        | ok t' =>
          rintro ⟨l, lc, o, rfl⟩
          exact (FollowsM.entity _ _ _).run t l lc o _
        | error e => exact False.elim
      | error x =>
        cases (vv (env.on e) "print(expr)" (from23 0 0) .hide : V) (s.placed g l lc o) with
        | ok t' => exact False.elim
        | error e' => exact id⟩
  have hf : ∀ f, FollowsM g (featureM env f) (featureM (env.on e) f) := fun f => ⟨fun s l lc o m => by
    show AlignedM g (if s.has f.flag then _ else _) (if s.has f.flag then _ else _)
    cases s.has f.flag with
    | false => exact ⟨rfl, l, lc, o, rfl⟩
    | true => exact (FollowsM.entity f.req f.info none).run s l lc o m⟩
  exact (FollowsM.thenM hp (.thenM (.eachM hf _) ⟨fun s l lc o m => (entitiesM_follows s).run s l lc o m⟩)).run s l lc o Req.unknown

end Vermin
