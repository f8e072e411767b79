import Verif.Lemmas.Visitor
import Verif.Model.Minimum
/-
The traversal principle: `Visiting`, `Closed` and `visit_closed`.
-/
namespace Vermin
open Py V Spec

/-- What is printed about a feature found: its requirement, from verbosity 2 on (3 for the constants `True` and `False`). -/
def told (f : Flag) (l : Nat) (vs : Option Req) : Bool :=
  (features.any fun x => decide (x.flag = f) && decide (vs = some x.req) && decide (f ≠ .longv2)) && decide (l = if f = .boolConst then 3 else 2) ||
  decide (vs = none) && decide (l = 2) && (decide (f = .longv2) || decide (f = .moduleDirFunc) || decide (f = .moduleGetattrFunc))

theorem told_level {f : Flag} {l : Nat} {vs : Option Req} (h : told f l vs = true) : 2 ≤ l := by
  unfold told at h
  simp only [Bool.or_eq_true, Bool.and_eq_true, decide_eq_true_eq] at h
  rcases h with ⟨_, rfl⟩ | ⟨⟨_, rfl⟩, _⟩
  · split <;> omega
  · omega

/-- Features about which nothing is printed by the visit. -/
def silent (f : Flag) : Bool := decide (f = .printv3) || decide (f = .maybeAnnotations)

/-- Features that are printed with the line of the node visited last in general. -/
def roaming : Flag → Bool
  | .longv2 | .boolConst | .unpackingAssignment | .generalizedUnpacking | .modInversePow | .superNoArgs | .format27 | .bytesFormat
  | .bytearrayFormat | .ellipsisOutOfSlices | .bytesv3 | .fstrings | .fstringsSelfDoc | .coroutines | .metaclassClassKeyword
  | .namedExprs | .posOnlyArgs | .kwOnlyArgs | .nonlocalStmt | .yieldFrom | .setComp | .dictComp | .asyncComprehension
  | .awaitInComprehension | .builtinGenericTypeAnnotations | .typeAliasStatement | .matMult => true
  | _ => false

/-- The line printed with a feature found at `n`: its own or that of a decorator, unless it is roaming. -/
def Sited (n : Node) (f : Flag) (line : LineArg) : Prop :=
  line = .at n.line ∨ (∃ x ∈ n.fields .decoratorList, line = .at x.line) ∨ line = .absent ∧ roaming f = true

/-- A line of `n` or of a node in it. -/
def Near (n : Node) (l : Nat) : Prop := ∃ k, In k n ∧ l = k.line

theorem near_self (n : Node) : Near n n.line := ⟨n, .self n, rfl⟩

/-- A relation between actions (under `env` and under `env` with other display options) that holds for the elementary
actions the node `n` allows and is closed under the ways the visitor puts actions together.  Actions that depend on the state
need to be related only for states satisfying `I`. -/
structure Acting (env : Env) (d : Display) (n : Node) (I : S → Prop) (Q : V → V → Prop) (A : Event → Prop) : Prop where
  skip : Q skip skip
  seq {a a' b b' : V} : Q a a' → Q b b' → Q (a ;; b) (a' ;; b')
  rd {f f' : S → V} : (∀ s x, I s → Q (f s) (f' (s.withOut x))) → Q (rd f) (rd f')
  raise {e : Err} : A (.raise e) → Q (fun _ => .error e) (fun _ => .error e)
  note (l msg ent line pl) : 2 ≤ l → Q (verbosePrint env l msg ent line none pl) (verbosePrint (env.show d) l msg ent line none pl)
  mark {f : Flag} : A (.flag f) → silent f = true → Q (setFlag f) (setFlag f)
  says {f : Flag} (l msg vs line pl) : A (.flag f) → told f l vs = true → Sited n f line →
    Q (setFlag f ;; verbosePrint env l msg none line vs pl) (setFlag f ;; verbosePrint (env.show d) l msg none line vs pl)
  saysFormat : A (.flag .format27) → Q (vv env "`\"..{}..\".format(..)`" (from23 7 0) ;; setFlag .format27)
    (vv (env.show d) "`\"..{}..\".format(..)`" (from23 7 0) ;; setFlag .format27)
  saysAnnotations {a a' : V} : A (.flag .annotations) → A (.flag .varAnnotations) → Q a a' →
    Q (a ;; setFlag .annotations ;; found env .varAnnotations "variable annotations" (from3 6) (.at n.line))
      (a' ;; setFlag .annotations ;; found (env.show d) .varAnnotations "variable annotations" (from3 6) (.at n.line))
  moduleAt {m : String} (l : Nat) (c) : A (.module m) → Near n l → Q (addModule env m (some l) c) (addModule (env.show d) m (some l) c)
  memberAt {m : String} (l : Nat) (c) : A (.member m) → Near n l → Q (addMember env m (some l) c) (addMember (env.show d) m (some l) c)
  kwarg {f : String} {k : Option String} (l) : A (.kwarg f k) → Q (addKwargs env f k l) (addKwargs (env.show d) f k l)
  decoAt {u : String} (l) : A (.deco u) → Near n l → Q (addUserFuncDeco env u l) (addUserFuncDeco (env.show d) u l)
  strftimeAt {x : String} (l) : A (.strftime x) → Near n l → Q (addStrftime x l) (addStrftime x l)
  bytesDirAt {x : String} (l) : A (.bytesDir x) → Near n l → Q (addBytesDir x l) (addBytesDir x l)
  typecodeAt {x : String} (l c) : A (.typecode x) → Near n l → Q (addTypecode x l c) (addTypecode x l c)
  errorHandlerAt {c : Const} (l) : A (.errorHandler c) → Near n l → Q (addErrorHandler env c l) (addErrorHandler (env.show d) c l)
  encodingAt {c : Const} (l) : A (.encoding c) → Near n l → Q (addEncoding env c l) (addEncoding (env.show d) c l)
  /-- the loop over the modules in `visit_Attribute` -/
  attrMods {full : List (Option String)} :
    (∀ s m, I s → full.head? = some (some m) → m ∈ s.modules → A (.module (dotted full))) →
    (∀ s mod, I s → (full.head?.getD none).bind (Dict.get? s.importMemMod) = some mod → A (.member (dotted (some mod :: full)))) →
    Q (V.rd fun s => attrModules env full (dotted full) n.line (s.modules.length + 2) 0)
      (V.rd fun s => attrModules (env.show d) full (dotted full) n.line (s.modules.length + 2) 0)
  kwExcl (f k) : (env.show d).cfg.isExcludedKwarg f k = env.cfg.isExcludedKwarg f k
  /-- features that are looked for only if enabled -/
  feature {x : String} {f : Flag} {b : Except Err Bool} (msg vs line pl) : (env.cfg.hasFeature x = true → ∀ e, b = .error e → A (.raise e)) →
    (env.cfg.hasFeature x = true → b = .ok true → A (.flag f)) → told f 2 vs = true → Sited n f line →
    Q (when (env.cfg.hasFeature x) (lift b fun c => when c (found env f msg vs line pl)))
      (when ((env.show d).cfg.hasFeature x) (lift b fun c => when c (found (env.show d) f msg vs line pl)))
  /-- the functions `__dir__` and `__getattr__` of a package -/
  dirs {x : String} : (∀ s args, I s → n.field .args = some args →
      (s.depth = 1 ∧ env.isInitFile = true ∧ args.fields .posonlyargs = [] ∧ args.fields .kwonlyargs = [] ∧ args.field .kwarg = none) →
      ((x = "__dir__" ∧ (args.fields .args).length = 0) → A (.flag .moduleDirFunc)) ∧
      ((x = "__getattr__" ∧ (args.fields .args).length = 1) → A (.flag .moduleGetattrFunc))) →
    Q (dirFuncs env n x) (dirFuncs (env.show d) n x)
  longType : (∀ s, I s → env.cfg.isExcluded "long" = false → s.userDefs.contains "long" = false → A (.flag .longv2)) →
    Q (visitName env "long") (visitName (env.show d) "long")
  encodingIdx (idx : Nat) : (∀ c, ((n.fields .args)[idx]?).bind Node.constVal = some c → A (.encoding c)) →
    (∀ kw ∈ n.fields .keywords, isEncodingKw kw = true → ∀ c, kwConst kw = some c → A (.encoding c)) →
    Q (addCodecsEncodingIdx env n idx) (addCodecsEncodingIdx (env.show d) n idx)
  userDef {x : String} : A (.define x) → Q (addUserDef x) (addUserDef x)
  nameRes {x y : String} : A (.value x y) → Q (addNameRes x y) (addNameRes x y)
  nameResType {x y : String} : A (.type x y) → Q (addNameResType x y) (addNameResType x y)
  moduleAs {x y : String} : A (.rename x y) → Q (upd fun s => { s with moduleAs := Dict.set s.moduleAs x y }) (upd fun s => { s with moduleAs := Dict.set s.moduleAs x y })
  importMem {x y : String} : A (.origin x y) → Q (upd fun s => { s with importMemMod := Dict.set s.importMemMod x y })
    (upd fun s => { s with importMemMod := Dict.set s.importMemMod x y })
  callScope {x : String} {a a' : V} : A (.call x) → Q a a' → Q (pushFn x ;; a ;; popFn) (pushFn x ;; a' ;; popFn)
  pop : Unnamed n → Q popFn popFn
  yield : A .yield → Q (upd fun s => { s with seenYield := s.seenYield + 1 }) (upd fun s => { s with seenYield := s.seenYield + 1 })
  await : A .await → Q (upd fun s => { s with seenAwait := s.seenAwait + 1 }) (upd fun s => { s with seenAwait := s.seenAwait + 1 })
  ellipsis {u : Nat} : A (.slice u) → Q (upd fun s => { s with ellipsisInSlices := s.ellipsisInSlices ++ [u] })
    (upd fun s => { s with ellipsisInSlices := s.ellipsisInSlices ++ [u] })
  inScope {a a' : V} : Q a a' → Q (inScope a) (inScope a')
  yieldScope {a a' : V} : Q a a' →
    Q (V.rd fun s => a ;; upd fun s' => { s' with seenYield := s.seenYield })
      (V.rd fun s => a' ;; upd fun s' => { s' with seenYield := s.seenYield })
  asyncScope {a a' : V} {name : String} : n.kind = .asyncFunctionDef name → A (.flag .coroutines) → Q a a' →
    Q (V.rd fun s => a ;; found env .coroutines "coroutines (async)" (from3 5) (.at n.line) (some true) ;;
        (V.rd fun s' => when (decide (s.seenYield < s'.seenYield) && decide (s.seenAwait < s'.seenAwait))
          (found env .asyncGenerator "async generators (await and yield in same func)" (from3 6) (.at n.line) (some true))) ;;
        upd fun s' => { s' with seenAwait := s.seenAwait, seenYield := s.seenYield })
      (V.rd fun s => a' ;; found (env.show d) .coroutines "coroutines (async)" (from3 5) (.at n.line) (some true) ;;
        (V.rd fun s' => when (decide (s.seenYield < s'.seenYield) && decide (s.seenAwait < s'.seenAwait))
          (found (env.show d) .asyncGenerator "async generators (await and yield in same func)" (from3 6) (.at n.line) (some true))) ;;
        upd fun s' => { s' with seenAwait := s.seenAwait, seenYield := s.seenYield })
  compScope {a a' : V} {b : Bool} : n.kind = .comprehension b → Q a a' →
    Q (V.rd fun s => a ;; (V.rd fun s' => when (decide (s.seenAwait < s'.seenAwait))
          (found env .awaitInComprehension "await in comprehensions" (from3 7))) ;; upd fun s' => { s' with seenAwait := s.seenAwait })
      (V.rd fun s => a' ;; (V.rd fun s' => when (decide (s.seenAwait < s'.seenAwait))
          (found (env.show d) .awaitInComprehension "await in comprehensions" (from3 7))) ;; upd fun s' => { s' with seenAwait := s.seenAwait })
  forScope {a b c a' b' c' : V} : n.kind = .for ∨ n.kind = .asyncFor → Q a a' → Q b b' → Q c c' →
    Q (upd (fun s => { s with seenFor := s.seenFor + 1 }) ;; Vermin.inScope (a ;; b ;; c ;; upd fun s => { s with seenFor := s.seenFor - 1 }))
      (upd (fun s => { s with seenFor := s.seenFor + 1 }) ;; Vermin.inScope (a' ;; b' ;; c' ;; upd fun s => { s with seenFor := s.seenFor - 1 }))
  whileScope {a a' : V} : n.kind = .while → Q a a' →
    Q (upd (fun s => { s with seenWhile := s.seenWhile + 1 }) ;; a ;; upd fun s => { s with seenWhile := s.seenWhile - 1 })
      (upd (fun s => { s with seenWhile := s.seenWhile + 1 }) ;; a' ;; upd fun s => { s with seenWhile := s.seenWhile - 1 })
  tryScope {a b a' b' : V} : n.kind = .try → Q a a' → Q b b' →
    Q (upd (fun s => { s with tryFinally := (s.seenFor, s.seenWhile) :: s.tryFinally }) ;; a ;;
        upd (fun s => { s with tryFinally := s.tryFinally.drop 1 }) ;; b)
      (upd (fun s => { s with tryFinally := (s.seenFor, s.seenWhile) :: s.tryFinally }) ;; a' ;;
        upd (fun s => { s with tryFinally := s.tryFinally.drop 1 }) ;; b')

/-- The same, with `generic_visit`. -/
structure Visiting (env : Env) (d : Display) (n : Node) (I : S → Prop) (Q : V → V → Prop) (A : Event → Prop) : Prop extends
    Acting env d n I Q A where
  gen (m : Node) {a a' : V} : Q a a' →
    Q (genEnter env m ;; a ;; upd fun s => { s with depth := s.depth - 1 })
      (genEnter (env.show d) m ;; a' ;; upd fun s => { s with depth := s.depth - 1 })

/-! The parts that depend on exclusions and on the modules found, if both environments have the same. -/

section
variable {env : Env} {d : Display} {I : S → Prop} {Q : V → V → Prop} {A : Event → Prop} {n : Node}

theorem relOpt {α : Type} {x : Option α} {a a' : V} {f f' : α → V} (h0 : x = none → Q a a') (h1 : ∀ v, x = some v → Q (f v) (f' v)) :
    Q (V.opt x a f) (V.opt x a' f') := by
  cases x with
  | none => exact h0 rfl
  | some v => exact h1 v rfl
theorem relIte {c : Prop} [Decidable c] {a a' b b' : V} (ha : c → Q a a') (hb : ¬ c → Q b b') : Q (if c then a else b) (if c then a' else b') := by
  split
  · exact ha (by assumption)
  · exact hb (by assumption)

theorem relWhen {c : Bool} {a a' : V} (h0 : Q V.skip V.skip) (h : c = true → Q a a') : Q (V.when c a) (V.when c a') := by
  cases c with
  | false => exact h0
  | true => exact h rfl

theorem attrLoop_of (skip : Q V.skip V.skip) (seq : ∀ {a a' b b' : V}, Q a a' → Q b b' → Q (a ;; b) (a' ;; b'))
    (rdMods : ∀ {f f' : S → V}, (∀ s x, x.modules = s.modules → I s → Q (f s) (f' (s.withOut x))) → Q (V.rd f) (V.rd f'))
    (module : ∀ {m : String} (l : Nat) (c), A (.module m) → Near n l → Q (addModule env m (some l) c) (addModule (env.show d) m (some l) c))
    (member : ∀ {m : String} (l : Nat) (c), A (.member m) → Near n l → Q (addMember env m (some l) c) (addMember (env.show d) m (some l) c))
    {full : List (Option String)}
    (hm : ∀ s m, I s → full.head? = some (some m) → m ∈ s.modules → A (.module (dotted full)))
    (hb : ∀ s mod, I s → (full.head?.getD none).bind (Dict.get? s.importMemMod) = some mod → A (.member (dotted (some mod :: full)))) : ∀ k i,
    Q (attrModules env full (dotted full) n.line k i) (attrModules (env.show d) full (dotted full) n.line k i) := by
  intro k
  induction k with
  | zero => exact fun _ => skip
  | succ k ih =>
    intro i
    refine rdMods fun s x hx hs => ?_
    show Q (V.opt s.modules[i]? _ _) (V.opt x.modules[i]? _ _)
    rw [hx]
    refine relOpt (Q := Q) (fun _ => skip) fun m hmi => seq (rdMods fun s' x' hx' hs' => ?_) (ih (i + 1))
    refine relIte (Q := Q) (fun hh => module _ _ (hm s m hs hh (List.mem_of_getElem? hmi)) (near_self n)) fun _ => ?_
    exact relOpt (Q := Q) (x := (full.head?.getD none).bind (Dict.get? s'.importMemMod)) (fun _ => skip) fun mod hmod =>
      member _ _ (hb s' mod hs' hmod) (near_self n)

theorem attrMods_of (skip : Q V.skip V.skip) (seq : ∀ {a a' b b' : V}, Q a a' → Q b b' → Q (a ;; b) (a' ;; b'))
    (rdMods : ∀ {f f' : S → V}, (∀ s x, x.modules = s.modules → I s → Q (f s) (f' (s.withOut x))) → Q (V.rd f) (V.rd f'))
    (module : ∀ {m : String} (l : Nat) (c), A (.module m) → Near n l → Q (addModule env m (some l) c) (addModule (env.show d) m (some l) c))
    (member : ∀ {m : String} (l : Nat) (c), A (.member m) → Near n l → Q (addMember env m (some l) c) (addMember (env.show d) m (some l) c))
    {full : List (Option String)}
    (hm : ∀ s m, I s → full.head? = some (some m) → m ∈ s.modules → A (.module (dotted full)))
    (hb : ∀ s mod, I s → (full.head?.getD none).bind (Dict.get? s.importMemMod) = some mod → A (.member (dotted (some mod :: full)))) :
    Q (V.rd fun s => attrModules env full (dotted full) n.line (s.modules.length + 2) 0)
      (V.rd fun s => attrModules (env.show d) full (dotted full) n.line (s.modules.length + 2) 0) := by
  refine rdMods fun s x hx _ => ?_
  show Q _ (attrModules (env.show d) full (dotted full) n.line (x.modules.length + 2) 0)
  rw [hx]
  exact attrLoop_of skip seq rdMods module member hm hb _ _

theorem feature_of (feats : ∀ x, d.features.contains x = env.cfg.features.contains x) (skip : Q V.skip V.skip)
    (raise : ∀ {e : Err}, A (.raise e) → Q (fun _ => .error e) (fun _ => .error e))
    (says : ∀ {f : Flag} (l msg vs line pl), A (.flag f) → told f l vs = true → Sited n f line →
      Q (setFlag f ;; verbosePrint env l msg none line vs pl) (setFlag f ;; verbosePrint (env.show d) l msg none line vs pl))
    {x : String} {f : Flag} {b : Except Err Bool} (msg vs line pl) (he : env.cfg.hasFeature x = true → ∀ e, b = .error e → A (.raise e))
    (hb : env.cfg.hasFeature x = true → b = .ok true → A (.flag f)) (ht : told f 2 vs = true) (hl : Sited n f line) :
    Q (when (env.cfg.hasFeature x) (lift b fun c => when c (found env f msg vs line pl)))
      (when ((env.show d).cfg.hasFeature x) (lift b fun c => when c (found (env.show d) f msg vs line pl))) := by
  rw [show (env.show d).cfg.hasFeature x = env.cfg.hasFeature x from feats x]
  cases hf : env.cfg.hasFeature x with
  | false => exact skip
  | true =>
    match b, he hf, hb hf with
    | .error e, he, _ => exact raise (he e rfl)
    | .ok false, _, _ => exact skip
    | .ok true, _, hb => exact says 2 msg vs line pl (hb rfl) ht hl

theorem dirs_of (init : (env.show d).isInitFile = env.isInitFile) (skip : Q V.skip V.skip)
    (rd : ∀ {f f' : S → V}, (∀ s x, I s → Q (f s) (f' (s.withOut x))) → Q (V.rd f) (V.rd f'))
    (says : ∀ {f : Flag} (l msg vs line pl), A (.flag f) → told f l vs = true → Sited n f line →
      Q (setFlag f ;; verbosePrint env l msg none line vs pl) (setFlag f ;; verbosePrint (env.show d) l msg none line vs pl)) {x : String}
    (hA : ∀ s args, I s → n.field .args = some args →
      (s.depth = 1 ∧ env.isInitFile = true ∧ args.fields .posonlyargs = [] ∧ args.fields .kwonlyargs = [] ∧ args.field .kwarg = none) →
      ((x = "__dir__" ∧ (args.fields .args).length = 0) → A (.flag .moduleDirFunc)) ∧
      ((x = "__getattr__" ∧ (args.fields .args).length = 1) → A (.flag .moduleGetattrFunc))) :
    Q (dirFuncs env n x) (dirFuncs (env.show d) n x) := by
  unfold dirFuncs
  rw [init]
  refine relOpt (Q := Q) (fun _ => skip) fun args hargs => rd fun s y hs => ?_
  show Q (V.when _ _) (V.when (decide (s.depth = 1) && _ && _ && _ && _) _)
  refine relWhen (Q := Q) skip fun hc => ?_
  simp only [Bool.and_eq_true, decide_eq_true_eq, List.isEmpty_iff, Option.isNone_iff_eq_none] at hc
  have key := hA s args hs hargs ⟨hc.1.1.1.1, hc.1.1.1.2, hc.1.1.2, hc.1.2, hc.2⟩
  refine relIte (Q := Q) (fun hx => says 2 _ none _ _ (key.1 hx) rfl (.inl rfl)) fun _ => relWhen (Q := Q) skip fun hx => ?_
  exact says 2 _ none _ _ (key.2 (of_decide_eq_true hx)) rfl (.inl rfl)

theorem longType_of (excl : ∀ x, d.exclusions.contains x = env.cfg.exclusions.contains x)
    (rd : ∀ {f f' : S → V}, (∀ s x, I s → Q (f s) (f' (s.withOut x))) → Q (V.rd f) (V.rd f'))
    (note : ∀ (l msg ent line pl), 2 ≤ l → Q (verbosePrint env l msg ent line none pl) (verbosePrint (env.show d) l msg ent line none pl))
    (found : A (.flag .longv2) → Q (found env .longv2 "long is a v2 feature") (Vermin.found (env.show d) .longv2 "long is a v2 feature"))
    (h : ∀ s, I s → env.cfg.isExcluded "long" = false → s.userDefs.contains "long" = false → A (.flag .longv2)) :
    Q (visitName env "long") (visitName (env.show d) "long") := by
  unfold visitName
  rw [if_pos rfl, if_pos rfl]
  refine rd fun s x hs => ?_
  show Q _ (if d.exclusions.contains "long" = true then _ else _)
  rw [excl]
  exact relIte (Q := Q) (fun _ => note _ _ _ _ _ (by decide)) fun hx => relIte (Q := Q) (fun _ => note _ _ _ _ _ (by decide)) fun hu =>
    found (h s hs (Bool.not_eq_true _ ▸ hx) (Bool.not_eq_true _ ▸ hu))

theorem encodingIdx_of (excl : ∀ x, d.exclusions.contains x = env.cfg.exclusions.contains x) (skip : Q V.skip V.skip)
    (seq : ∀ {a a' b b' : V}, Q a a' → Q b b' → Q (a ;; b) (a' ;; b'))
    (enc : ∀ {c : Const} (l), A (.encoding c) → Near n l → Q (addEncoding env c l) (addEncoding (env.show d) c l)) (idx : Nat)
    (ha : ∀ c, ((n.fields .args)[idx]?).bind Node.constVal = some c → A (.encoding c))
    (hb : ∀ kw ∈ n.fields .keywords, isEncodingKw kw = true → ∀ c, kwConst kw = some c → A (.encoding c)) :
    Q (addCodecsEncodingIdx env n idx) (addCodecsEncodingIdx (env.show d) n idx) := by
  have kws : Q (addCodecsEncodingKws env n) (addCodecsEncodingKws (env.show d) n) := by
    unfold addCodecsEncodingKws
    generalize hl : n.fields .keywords = l at hb
    clear hl
    induction l with
    | nil => exact skip
    | cons kw l ih =>
      refine seq ?_ (ih fun k hk => hb k (List.mem_cons_of_mem _ hk))
      dsimp only
      cases hw : isEncodingKw kw with
      | false => exact skip
      | true => exact relOpt (Q := Q) (fun _ => skip) fun c hc => enc _ (hb kw (by simp) hw c hc) (near_self n)
  refine relOpt (Q := Q) (fun _ => kws) fun c hc => ?_
  show Q _ (if d.exclusions.contains ("ce=" ++ c.text) = true then _ else _)
  rw [excl]
  exact relIte (Q := Q) (fun _ => enc _ (ha c hc) (near_self n)) fun _ => seq (enc _ (ha c hc) (near_self n)) kws
end

/-- The same for actions taken one by one. -/
structure Closed (env : Env) (d : Display) (n : Node) (I : S → Prop) (Q : V → V → Prop) (A : Event → Prop) : Prop extends
    Visiting env d n I Q A where
  print (l msg ent line vs pl) : 2 ≤ l → Q (verbosePrint env l msg ent line vs pl) (verbosePrint (env.show d) l msg ent line vs pl)
  flag {f : Flag} : A (.flag f) → Q (setFlag f) (setFlag f)
  module {m : String} (l c) : A (.module m) → Q (addModule env m l c) (addModule (env.show d) m l c)
  member {m : String} (l c) : A (.member m) → Q (addMember env m l c) (addMember (env.show d) m l c)
  deco {u : String} (l) : A (.deco u) → Q (addUserFuncDeco env u l) (addUserFuncDeco (env.show d) u l)
  strftime {x : String} (l) : A (.strftime x) → Q (addStrftime x l) (addStrftime x l)
  bytesDir {x : String} (l) : A (.bytesDir x) → Q (addBytesDir x l) (addBytesDir x l)
  typecode {x : String} (l c) : A (.typecode x) → Q (addTypecode x l c) (addTypecode x l c)
  errorHandler {c : Const} (l) : A (.errorHandler c) → Q (addErrorHandler env c l) (addErrorHandler (env.show d) c l)
  encoding {c : Const} (l) : A (.encoding c) → Q (addEncoding env c l) (addEncoding (env.show d) c l)
  excl (x) : d.exclusions.contains x = env.cfg.exclusions.contains x
  feats (x) : d.features.contains x = env.cfg.features.contains x
  init : (env.show d).isInitFile = env.isInitFile
  rdMods {f f' : S → V} : (∀ s x, x.modules = s.modules → I s → Q (f s) (f' (s.withOut x))) → Q (V.rd f) (V.rd f')
  rd := fun hf => rdMods fun s x _ hs => hf s x hs
  note := fun l msg ent line pl hl => print l msg ent line none pl hl
  mark := fun h _ => flag h
  says := fun l msg vs line pl h ht _ => seq (flag h) (print l msg none line vs pl (told_level ht))
  saysFormat := fun h => seq (print _ _ _ _ _ _ (by decide)) (flag h)
  saysAnnotations := fun h h' ha => seq (seq ha (flag h)) (seq (flag h') (print _ _ _ _ _ _ (by decide)))
  moduleAt := fun l c h _ => module (some l) c h
  memberAt := fun l c h _ => member (some l) c h
  decoAt := fun l h _ => deco l h
  strftimeAt := fun l h _ => strftime l h
  bytesDirAt := fun l h _ => bytesDir l h
  typecodeAt := fun l c h _ => typecode l c h
  errorHandlerAt := fun l h _ => errorHandler l h
  encodingAt := fun l h _ => encoding l h
  attrMods := fun hm hb => attrMods_of skip seq rdMods (fun l c h _ => module (some l) c h) (fun l c h _ => member (some l) c h) hm hb
  kwExcl := fun f k => excl (f ++ "(" ++ k ++ ")")
  feature := fun msg vs line pl he hb ht hl => feature_of feats skip raise (fun l msg vs line pl h ht _ => seq (flag h) (print l msg none line vs pl (told_level ht))) msg vs line pl he hb ht hl
  dirs := fun h => dirs_of init skip (fun hf => rdMods fun s x _ hs => hf s x hs) (fun l msg vs line pl h ht _ => seq (flag h) (print l msg none line vs pl (told_level ht))) h
  longType := fun h => longType_of excl (fun hf => rdMods fun s x _ hs => hf s x hs) (fun l msg ent line pl hl => print l msg ent line none pl hl)
    (fun h => seq (flag h) (print _ _ _ _ _ _ (by decide))) h
  encodingIdx := fun idx ha hb => encodingIdx_of excl skip seq (fun l h _ => encoding l h) idx ha hb

/-- Children of `n` visited alike; `generic_visit` matters for classes. -/
inductive Kids (n : Node) (Q : V → V → Prop) : List Child → List Child → Prop
  | nil : Kids n Q [] []
  | cons {c c' cs cs'} : c.node = c'.node → Q c.visit c'.visit → ((∃ name, n.kind = .classDef name) → Q c.gvisit c'.gvisit) → Kids n Q cs cs' → Kids n Q (c :: cs) (c' :: cs')

theorem Kids.filter {n : Node} {Q : V → V → Prop} {cs cs' : List Child} (h : Kids n Q cs cs') (p : Node → Bool) :
    Kids n Q (cs.filter fun c => p c.node) (cs'.filter fun c => p c.node) := by
  induction h with
  | nil => exact .nil
  | @cons c c' cs cs' hn hv hg _ ih =>
    by_cases hp : p c.node = true
    · have hp' : p c'.node = true := by rw [← hn]; exact hp
      simp only [List.filter_cons, hp, hp', if_true]; exact .cons hn hv hg ih
    · have hp' : ¬ p c'.node = true := by rw [← hn]; exact hp
      simp only [List.filter_cons, hp, hp']; exact ih

/-- The ways in which the children of `n` are visited, as a whole. -/
structure Kin (env : Env) (d : Display) (n : Node) (Q : V → V → Prop) (cs cs' : List Child) : Prop where
  all : Q (Vermin.gen env n cs) (Vermin.gen (env.show d) n cs')
  results : IsFunction n → Q (Vermin.gen env (dropReturns env n) (dropReturnsKids env cs)) (Vermin.gen (env.show d) (dropReturns (env.show d) n) (dropReturnsKids (env.show d) cs'))
  finals : n.kind = .try → Q (V.each Child.visit (finalOf cs)) (V.each Child.visit (finalOf cs'))
  bodies {name : String} : n.kind = .classDef name → Q (V.each Child.gvisit (bodyOf cs)) (V.each Child.gvisit (bodyOf cs'))

set_option linter.unusedSectionVars false
set_option linter.unusedVariables false
namespace Acting
variable {env : Env} {d : Display} {n : Node} {I : S → Prop} {Q : V → V → Prop} {A : Event → Prop} (h : Acting env d n I Q A)
include h

theorem when {c : Bool} {a a' : V} (ha : c = true → Q a a') : Q (when c a) (when c a') := by
  cases c with
  | true => exact ha rfl
  | false => exact h.skip
theorem alt {c : Bool} {a a' b b' : V} (ha : c = true → Q a a') (hb : c = false → Q b b') : Q (alt c a b) (alt c a' b') := by
  cases c with
  | true => exact ha rfl
  | false => exact hb rfl
theorem ite {c : Prop} [Decidable c] {a a' b b' : V} (ha : c → Q a a') (hb : ¬ c → Q b b') : Q (if c then a else b) (if c then a' else b') := by
  by_cases hc : c
  · rw [if_pos hc, if_pos hc]; exact ha hc
  · rw [if_neg hc, if_neg hc]; exact hb hc
theorem opt {α : Type} {x : Option α} {a a' : V} {k k' : α → V} (ha : x = none → Q a a') (hk : ∀ v, x = some v → Q (k v) (k' v)) :
    Q (opt x a k) (opt x a' k') := by
  cases x with
  | none => exact ha rfl
  | some v => exact hk v rfl
theorem optSkip {α : Type} {x : Option α} {k k' : α → V} (hk : ∀ v, x = some v → Q (k v) (k' v)) :
    Q (V.opt x V.skip k) (V.opt x V.skip k') := h.opt (fun _ => h.skip) hk
theorem lift {α : Type} {x : Except Err α} {k k' : α → V} (he : ∀ e, x = .error e → A (.raise e)) (hk : ∀ v, x = .ok v → Q (k v) (k' v)) :
    Q (lift x k) (lift x k') := by
  cases x with
  | ok v => exact hk v rfl
  | error e => exact h.raise (he e rfl)
theorem each {α : Type} {f f' : α → V} : ∀ {l : List α}, (∀ x ∈ l, Q (f x) (f' x)) → Q (each f l) (each f' l)
  | [], _ => h.skip
  | x :: l, hf => h.seq (hf x (by simp)) (each fun y hy => hf y (by simp [hy]))
theorem gate {m : Node} {a a' : V} (ha : m.line ∉ env.noLines → Q a a') : Q (gate env m a) (gate (env.show d) m a') := by
  unfold Vermin.gate
  by_cases hc : env.isNoLine m.line = true
  · rw [if_pos hc, if_pos (show (env.show d).isNoLine m.line = true from hc)]; exact h.skip
  · rw [if_neg hc, if_neg (show ¬ (env.show d).isNoLine m.line = true from hc)]
    exact ha fun hm => hc (by simpa [Env.isNoLine] using hm)
theorem found {f : Flag} (msg vs line pl) (hf : A (.flag f)) (ht : told f 2 vs = true := by decide)
    (hl : Sited n f line := by first | exact .inl rfl | exact .inr (.inr ⟨rfl, rfl⟩)) :
    Q (found env f msg vs line pl) (found (env.show d) f msg vs line pl) :=
  h.says _ _ _ _ _ hf ht hl
theorem module {m : String} (l : Nat) (c) (hm : A (.module m)) (hl : Near n l := by exact near_self _) :
    Q (addModule env m (some l) c) (addModule (env.show d) m (some l) c) := h.moduleAt l c hm hl
theorem member {m : String} (l : Nat) (c) (hm : A (.member m)) (hl : Near n l := by exact near_self _) :
    Q (addMember env m (some l) c) (addMember (env.show d) m (some l) c) := h.memberAt l c hm hl
theorem deco {u : String} (l) (hu : A (.deco u)) (hl : Near n l := by exact near_self _) :
    Q (addUserFuncDeco env u l) (addUserFuncDeco (env.show d) u l) := h.decoAt l hu hl
theorem strftime {x : String} (l) (hx : A (.strftime x)) (hl : Near n l := by exact near_self _) : Q (addStrftime x l) (addStrftime x l) := h.strftimeAt l hx hl
theorem bytesDir {x : String} (l) (hx : A (.bytesDir x)) (hl : Near n l := by exact near_self _) : Q (addBytesDir x l) (addBytesDir x l) := h.bytesDirAt l hx hl
theorem typecode {x : String} (l c) (hx : A (.typecode x)) (hl : Near n l := by exact near_self _) : Q (addTypecode x l c) (addTypecode x l c) := h.typecodeAt l c hx hl
theorem errorHandler {c : Const} (l) (hc : A (.errorHandler c)) (hl : Near n l := by exact near_self _) :
    Q (addErrorHandler env c l) (addErrorHandler (env.show d) c l) := h.errorHandlerAt l hc hl
theorem encoding {c : Const} (l) (hc : A (.encoding c)) (hl : Near n l := by exact near_self _) :
    Q (addEncoding env c l) (addEncoding (env.show d) c l) := h.encodingAt l hc hl
theorem eachVisit {cs cs' : List Child} (hk : Kids n Q cs cs') : Q (V.each Child.visit cs) (V.each Child.visit cs') := by
  induction hk with
  | nil => exact h.skip
  | cons _ hv _ _ ih => exact h.seq hv ih
theorem eachGvisit {name : String} (hn : n.kind = .classDef name) {cs cs' : List Child} (hk : Kids n Q cs cs') : Q (V.each Child.gvisit cs) (V.each Child.gvisit cs') := by
  induction hk with
  | nil => exact h.skip
  | cons _ _ hg _ ih => exact h.seq (hg ⟨name, hn⟩) ih

/-- The name of a call of a name does not depend on the state. -/
theorem callScope' {x : String} {a a' : V} (hx : ∀ s, I s → A (.call x)) (ha : Q a a') : Q (pushFn x ;; a ;; popFn) (pushFn x ;; a' ;; popFn) :=
  (h.rd (f := fun _ => pushFn x ;; a ;; popFn) (f' := fun _ => pushFn x ;; a' ;; popFn) fun s _ hs => h.callScope (hx s hs) ha : _)

omit h in
theorem head_of_getD {full : List (Option String)} {x : String} (hx : full.head?.getD none = some x) : full.head? = some (some x) := by
  cases hf : full.head? with
  | none => rw [hf] at hx; cases hx
  | some o => rw [hf] at hx; exact congrArg some hx

/-! ### Imports and names -/

theorem addAlias {x y : String} (h1 : A (.rename x y)) (h2 : A (.define x)) : Q (addAlias x y) (addAlias x y) := h.seq (h.moduleAs h1) (h.userDef h2)

omit h in
theorem aliasName (a : Node) : AliasName a (aliasOf a).1 := by
  unfold aliasOf AliasName
  split
  · rename_i x y hk; exact .inl ⟨_, hk⟩
  · rename_i hk; exact .inr ⟨rfl, hk⟩
omit h in
theorem aliasAs {a : Node} {x : String} (hx : (aliasOf a).2 = some x) : a.kind = .alias (aliasOf a).1 (some x) := by
  unfold aliasOf at hx ⊢
  split at hx
  · rename_i y z hk; simp only at hx ⊢; rw [hk, hx]
  · cases hx

variable (hA : ∀ ev, EmitsIn env I n ev → A ev)
include hA

theorem visitImport (hn : n.kind = .import) : Q (visitImport env n) (visitImport (env.show d) n) := by
  refine h.gate fun _ => h.each fun a ha => ?_
  refine h.seq (h.seq (h.module _ _ ?_) (h.member _ _ ?_)) (h.optSkip fun x hx => h.addAlias ?_ ?_)
  · exact hA _ (.inl ⟨hn, a, ha, aliasName a⟩)
  · exact hA _ (.inl ⟨hn, a, ha, aliasName a⟩)
  · exact hA _ ⟨a, ha, _, aliasAs hx, .inl ⟨hn, rfl⟩⟩
  · exact hA _ (.inr (.inr (.inl ⟨.inl hn, a, ha, _, aliasAs hx⟩)))

theorem visitImportFrom {m : Option String} {l : Nat} (hn : n.kind = .importFrom m l) :
    Q (visitImportFrom env n m l) (visitImportFrom (env.show d) n m l) := by
  refine h.optSkip fun x hx => h.when fun hl => h.gate fun _ => ?_
  have hl : l = 0 := by simpa using hl
  subst hl
  subst hx
  refine h.seq (h.module _ _ (hA _ (.inr (.inl ⟨x, hn, .inl rfl⟩)))) (h.each fun a ha => ?_)
  refine h.seq (h.when fun hs => ?_) (h.optSkip fun y hy => h.addAlias ?_ ?_)
  · refine h.seq (h.seq (h.seq (h.importMem ?_) (h.module _ _ ?_)) (h.member _ _ ?_)) (h.member _ _ ?_)
    · exact hA _ ⟨hn, of_decide_eq_true hs, a, ha, aliasName a⟩
    · exact hA _ (.inr (.inl ⟨x, hn, .inr ⟨a, ha, _, aliasName a, of_decide_eq_true hs, rfl⟩⟩))
    · exact hA _ (.inr (.inl ⟨x, hn, a, ha, _, aliasName a, of_decide_eq_true hs, .inl rfl⟩))
    · exact hA _ (.inr (.inl ⟨x, hn, a, ha, _, aliasName a, of_decide_eq_true hs, .inr rfl⟩))
  · exact hA _ ⟨a, ha, _, aliasAs hy, .inr ⟨x, hn, rfl⟩⟩
  · exact hA _ (.inr (.inr (.inl ⟨.inr ⟨x, hn⟩, a, ha, _, aliasAs hy⟩)))

theorem visitName {id : String} {c : Ctx} (hn : n.kind = .name id c) : Q (visitName env id) (visitName (env.show d) id) := by
  by_cases hi : id = "long"
  · subst hi
    exact h.longType fun s hs hx hd => hA _ ⟨⟨⟨c, hn⟩, hx⟩, s, hs, fun hm => by rw [List.contains_iff_mem.mpr hm] at hd; cases hd⟩
  · unfold Vermin.visitName
    rw [if_neg hi, if_neg hi]
    refine h.when fun hb => h.says _ _ _ _ _ ?_ (by decide) (.inr (.inr ⟨rfl, rfl⟩))
    have hb : id = "True" ∨ id = "False" := by simpa using hb
    rcases hb with hb | hb
    · exact hA _ (.inr (.inl ⟨c, hb ▸ hn⟩))
    · exact hA _ (.inr (.inr ⟨c, hb ▸ hn⟩))

theorem visitStarred {ctx : Ctx} (hn : n.kind = .starred ctx) {cs cs' : List Child} (hk : Kin env d n Q cs cs') :
    Q (visitStarred env n ctx cs) (visitStarred (env.show d) n ctx cs') := by
  refine h.seq (h.when fun hc => h.found _ _ _ _ (hA _ ?_)) hk.all
  have hc : ctx = .store := by simpa using hc
  show n.kind = .starred .store
  exact hc ▸ hn

/-! ### Calls -/

omit h hA in
theorem positions_spec {α : Type} (p : α → Bool) : ∀ (l : List α) (i j : Nat), j ∈ positions p i l → ∃ k a, j = i + k ∧ l[k]? = some a ∧ p a = true
  | [], i, j, hj => by cases hj
  | x :: l, i, j, hj => by
    unfold positions at hj
    split at hj
    · rename_i hp
      rcases List.mem_cons.mp hj with hj | hj
      · exact ⟨0, x, by omega, rfl, hp⟩
      · obtain ⟨k, a, h1, h2, h3⟩ := positions_spec p l (i + 1) j hj
        exact ⟨k + 1, a, by omega, h2, h3⟩
    · obtain ⟨k, a, h1, h2, h3⟩ := positions_spec p l (i + 1) j hj
      exact ⟨k + 1, a, by omega, h2, h3⟩
omit h hA in
theorem positions_nodup {α : Type} (p : α → Bool) : ∀ (l : List α) (i : Nat), (positions p i l).Pairwise (· < ·)
  | [], _ => List.Pairwise.nil
  | x :: l, i => by
    unfold positions
    split
    · refine List.pairwise_cons.mpr ⟨fun j hj => ?_, positions_nodup p l (i + 1)⟩
      obtain ⟨k, _, hk, _⟩ := positions_spec p l (i + 1) j hj
      omega
    · exact positions_nodup p l (i + 1)
omit h hA in
theorem unpackPositions_spec {α : Type} {p : α → Bool} {P : α → Prop} (hp : ∀ a, p a = true → P a) {l : List α}
    (hu : unpackPositions (positions p 0 l) l.length = true) : UnpacksArgs l P := by
  unfold unpackPositions at hu
  simp only [Bool.or_eq_true, decide_eq_true_eq, List.any_eq_true] at hu
  rcases hu with hu | ⟨j, hj, hl⟩
  · have hnd := positions_nodup p l 0
    match hps : positions p 0 l with
    | [] => rw [hps] at hu; simp at hu
    | [_] => rw [hps] at hu; simp at hu
    | x :: y :: r =>
      rw [hps] at hnd
      have hxy : x < y := (List.pairwise_cons.mp hnd).1 y (by simp)
      obtain ⟨k, a, h1, h2, h3⟩ := positions_spec p l 0 x (by rw [hps]; simp)
      obtain ⟨k', b, h1', h2', h3'⟩ := positions_spec p l 0 y (by rw [hps]; simp)
      exact ⟨k, a, h2, hp a h3, .inr ⟨k', b, by omega, h2', hp b h3'⟩⟩
  · obtain ⟨k, a, h1, h2, h3⟩ := positions_spec p l 0 j hj
    exact ⟨k, a, h2, hp a h3, .inl (by omega)⟩

omit h hA in
theorem unpacks_spec (hu : unpacks n = true) : Construct env .generalizedUnpacking n := by
  unfold unpacks at hu
  split at hu
  · rename_i hn
    left
    refine ⟨hn, ?_⟩
    unfold callUnpacks at hu
    rcases Bool.or_eq_true_iff.mp hu with hu | hu
    · left
      exact unpackPositions_spec (fun a ha => by simpa [isValidStarUnpack, IsUnpacked] using ha) hu
    · right
      refine unpackPositions_spec (fun a ha => ?_) hu
      rintro ⟨x, hx⟩
      simp [kwArg, hx] at ha
  · rename_i c hn
    right; left
    obtain ⟨e, he, hs⟩ := List.any_eq_true.mp hu
    exact ⟨.inl ⟨c, hn⟩, e, he, by simpa [isValidStarUnpack, IsUnpacked] using hs⟩
  · rename_i hn
    right; left
    obtain ⟨e, he, hs⟩ := List.any_eq_true.mp hu
    exact ⟨.inr (.inr hn), e, he, by simpa [isValidStarUnpack, IsUnpacked] using hs⟩
  · rename_i c hn
    right; left
    obtain ⟨e, he, hs⟩ := List.any_eq_true.mp hu
    exact ⟨.inr (.inl ⟨c, hn⟩), e, he, by simpa [isValidStarUnpack, IsUnpacked] using hs⟩
  · rename_i l hn
    right; right
    obtain ⟨b, hb, hs⟩ := List.any_eq_true.mp hu
    exact ⟨l, hn, by simpa using hs ▸ hb⟩
  · cases hu

theorem checkUnpacking : Q (checkUnpacking env n) (checkUnpacking (env.show d) n) :=
  h.when fun hu => h.found _ _ _ _ (hA _ (unpacks_spec (env := env) hu))

omit h hA in
theorem strVal_iff {a : Node} {t : String} (ht : a.strVal = some t) : a.kind = .const (.str t) := by
  unfold Node.strVal at ht
  split at ht
  · rename_i s hk; injection ht with ht; rw [hk, ht]
  · cases ht
omit h hA in
theorem constVal_iff {a : Node} {c : Const} (ht : a.constVal = some c) : a.kind = .const c := by
  unfold Node.constVal at ht
  split at ht
  · rename_i s hk; injection ht with ht; rw [hk, ht]
  · cases ht
omit h hA in
theorem opOf_iff {m : Node} {o : Op} (ht : m.opOf = some o) : m.kind = .op o := by
  unfold Node.opOf at ht
  split at ht
  · rename_i s hk; injection ht with ht; rw [hk, ht]
  · cases ht

theorem typecodeArgs (hn : n.kind = .call)
    (hf : CallsName n "array" ∨ ∃ s, I s ∧ ((∃ x, CallsName n x ∧ Dict.get? s.moduleAs x = some "array.array") ∨ CallsSpelled s.moduleAs n "array.array"))
    (off : Nat) : Q (typecodeArgs n off) (typecodeArgs n off) :=
  h.each fun a ha => h.optSkip fun _ ht => h.typecode _ _ (hA _ ⟨hn, ⟨a, ha, strVal_iff ht⟩, hf⟩)

theorem addCodecsErrorHandler (hn : n.kind = .call) {func : String} {s : S} (hs : I s) (hf : CallsFunction s n func) :
    Q (addCodecsErrorHandler env func n) (addCodecsErrorHandler (env.show d) func n) := by
  refine h.optSkip fun idx hidx => h.seq (h.optSkip fun c hc => h.errorHandler _ ?_)
    (h.each fun kw hkw => h.when fun hw => h.optSkip fun c hc => h.errorHandler _ ?_)
  · obtain ⟨a, ha, hc⟩ := Option.bind_eq_some_iff.mp hc
    exact hA _ ⟨hn, s, func, idx, hs, hf, hidx, .inl ⟨a, ha, constVal_iff hc⟩⟩
  · obtain ⟨v, hv, hc⟩ := Option.bind_eq_some_iff.mp hc
    refine hA _ ⟨hn, s, func, idx, hs, hf, hidx, .inr ⟨kw, hkw, ⟨"errors", by simp, ?_⟩, v, hv, constVal_iff hc⟩⟩
    have hw : kwArg kw = some "errors" := by simpa using hw
    unfold kwArg at hw
    split at hw
    · rename_i a hk; rw [hk, hw]
    · cases hw

theorem addCodecsEncodingIdx (hn : n.kind = .call) {func : String} {is : List Nat} {s : S} (hs : I s) (hf : CallsFunction s n func)
    (his : env.tables.encodingsIndices func = some is) {idx : Nat} (hi : idx ∈ is) :
    Q (addCodecsEncodingIdx env n idx) (addCodecsEncodingIdx (env.show d) n idx) := by
  refine h.encodingIdx idx (fun c hc => ?_) fun kw hkw hw c hc => ?_
  · obtain ⟨a, ha, hc⟩ := Option.bind_eq_some_iff.mp hc
    exact hA _ ⟨hn, s, func, is, hs, hf, his, .inl ⟨idx, hi, a, ha, constVal_iff hc⟩⟩
  · obtain ⟨v, hv, hc⟩ := Option.bind_eq_some_iff.mp hc
    unfold isEncodingKw at hw
    split at hw
    · rename_i a ha
      refine hA _ ⟨hn, s, func, is, hs, hf, his, .inr ⟨kw, hkw, ⟨a, by simpa [encodingKwargs] using hw, ?_⟩, v, hv, constVal_iff hc⟩⟩
      unfold kwArg at ha
      split at ha
      · rename_i a hk; rw [hk, ha]
      · cases ha
    · cases hw

theorem checkCodecsFunction (hn : n.kind = .call) {func : String} {s : S} (hs : I s) (hf : CallsFunction s n func) :
    Q (checkCodecsFunction env func n) (checkCodecsFunction (env.show d) func n) :=
  h.seq (h.addCodecsErrorHandler hA hn hs hf) (h.optSkip fun _ his => h.each fun _ hi => h.addCodecsEncodingIdx hA hn hs hf his hi)

theorem callCodecs {id : String} (hn : CallsName n id) : Q (callCodecs env n id) (callCodecs (env.show d) n id) := by
  refine h.rd fun s x_ hs => ?_
  show Q (match Dict.get? s.importMemMod id with
    | some m => Vermin.checkCodecsFunction env (m ++ "." ++ id) n
    | none => _) (match Dict.get? s.importMemMod id with
    | some m => Vermin.checkCodecsFunction (env.show d) (m ++ "." ++ id) n
    | none => _)
  cases hm : Dict.get? s.importMemMod id with
  | some m => exact h.checkCodecsFunction hA hn.1 hs (.inl ⟨id, hn, .inl ⟨m, hm, rfl⟩⟩)
  | none =>
    show Q (match Dict.get? s.moduleAs id with
      | some m => Vermin.checkCodecsFunction env m n
      | none => V.skip) (match Dict.get? s.moduleAs id with
      | some m => Vermin.checkCodecsFunction (env.show d) m n
      | none => V.skip)
    cases hm : Dict.get? s.moduleAs id with
    | some m => exact h.checkCodecsFunction hA hn.1 hs (.inl ⟨id, hn, .inr hm⟩)
    | none => exact h.skip

omit h hA in
theorem isIntNode_iff {a : Node} (ha : isIntNode a = true) : IsIntLit a := by
  have key : ∀ {m : Node} {i : Int}, intConst m = some i → m.kind = .const (.int i) := by
    intro m i hm
    unfold intConst at hm
    split at hm
    · rename_i j hk; injection hm with hm; rw [hk, hm]
    · cases hm
  unfold isIntNode at ha
  simp only [Bool.or_eq_true, Bool.and_eq_true, decide_eq_true_eq] at ha
  rcases ha with ha | ⟨h1, h2⟩
  · obtain ⟨i, hi⟩ := Option.isSome_iff_exists.mp ha
    exact .inl ⟨i, key hi⟩
  · obtain ⟨i, hi⟩ := Option.isSome_iff_exists.mp h2
    obtain ⟨m, hm, hi⟩ := Option.bind_eq_some_iff.mp hi
    exact .inr ⟨h1, m, i, hm, key hi⟩
omit h hA in
theorem isNegIntNode_iff {a : Node} (ha : isNegIntNode a = true) : IsNegIntLit a := by
  have key : ∀ {m : Node} {i : Int}, intConst m = some i → m.kind = .const (.int i) := by
    intro m i hm
    unfold intConst at hm
    split at hm
    · rename_i j hk; injection hm with hm; rw [hk, hm]
    · cases hm
  unfold isNegIntNode at ha
  simp only [Bool.or_eq_true, Bool.and_eq_true, decide_eq_true_eq] at ha
  rcases ha with ha | ⟨⟨h1, h2⟩, h3⟩
  · split at ha
    · rename_i i hi
      exact .inl ⟨i, by simpa using ha, key hi⟩
    · cases ha
  · obtain ⟨i, hi⟩ := Option.isSome_iff_exists.mp h3
    obtain ⟨m, hm, hi⟩ := Option.bind_eq_some_iff.mp hi
    obtain ⟨o, ho, hoo⟩ := Option.bind_eq_some_iff.mp h2
    exact .inr ⟨h1, ⟨o, ho, opOf_iff hoo⟩, m, i, hm, key hi⟩

theorem callSpecial {id : String} (hn : CallsName n id) : Q (callSpecial env n id) (callSpecial (env.show d) n id) := by
  refine h.rd fun s x_ hs => h.ite (fun hp => h.mark (hA _ (show CallsName n "print" from hp ▸ hn)) rfl) fun _ => h.ite (fun ha => h.typecodeArgs hA hn.1 ?_ _) fun _ =>
    h.ite (fun hp => h.when fun hi => h.found _ _ _ _ (hA _ ?_)) fun _ => h.when fun hsu => h.found _ _ _ _ (hA _ ?_)
  · rcases ha with ha | ha
    · exact .inl (ha ▸ hn)
    · exact .inr ⟨s, hs, .inl ⟨id, hn, ha⟩⟩
  · refine ⟨hp.1 ▸ hn, ?_⟩
    unfold isInversePow at hi
    split at hi
    · rename_i a b c hl
      simp only [Bool.and_eq_true] at hi
      exact ⟨a, b, c, hl, isIntNode_iff hi.1.1, isNegIntNode_iff hi.1.2, isIntNode_iff hi.2⟩
    · cases hi
  · simp only [Bool.and_eq_true, decide_eq_true_eq, List.isEmpty_iff] at hsu
    exact ⟨hsu.1 ▸ hn, hsu.2⟩

theorem callAttrSpecial {f : Node} {attr : String} (hn : n.kind = .call) (hf : n.field .func = some f) (ha : f.kind = .attribute attr) :
    Q (callAttrSpecial env n f attr) (callAttrSpecial (env.show d) n f attr) := by
  refine h.ite (fun hp => h.when fun hi => h.saysFormat (hA _ ?_)) fun _ =>
    h.when fun hs => h.each fun a hm => h.optSkip fun c hc => ?_
  · unfold isFormat27 at hi
    split at hi
    · rename_i t ht
      obtain ⟨e, he, ht⟩ := Option.bind_eq_some_iff.mp ht
      exact ⟨e, t, ⟨hn, f, hf, hp ▸ ha, he⟩, strVal_iff ht, autoField (Bool.and_eq_true_iff.mp hi).2⟩
    · cases hi
  · have hs : attr = "strftime" ∨ attr = "strptime" := by simpa using hs
    have hf' : f.kind = .attribute "strftime" ∨ f.kind = .attribute "strptime" := by
      rcases hs with hs | hs
      · exact .inl (hs ▸ ha)
      · exact .inr (hs ▸ ha)
    have hc := constVal_iff hc
    cases c with
    | str t => exact h.each fun x hx => h.strftime _ (hA _ ⟨f, a, t, hn, hf, hf', hm, hc, mem_directives.mp hx⟩)
    | _ => exact h.raise (hA _ (.inl ⟨rfl, f, a, _, hn, hf, hf', hm, hc, nofun⟩))

omit h hA in
theorem seq_assoc (a b c : V) : (a ;; b) ;; c = a ;; (b ;; c) := by
  funext s
  show V.seq (V.seq a b) c s = V.seq a (V.seq b c) s
  unfold V.seq
  cases a s <;> rfl
omit h hA in
theorem rd_seq (f : S → V) (c : V) : V.rd f ;; c = V.rd fun s => f s ;; c := rfl
omit h hA in
theorem lift_seq {α : Type} (x : Except Err α) (k : α → V) (c : V) : V.lift x k ;; c = V.lift x fun v => k v ;; c := by
  cases x <;> rfl

omit h hA in
/-- A call of a name, with what happens between pushing and popping. -/
theorem visitCall_name {id : String} {c : Ctx} {f : Node} (env : Env) (cs : List Child) (hf : n.field .func = some f) (hk : f.kind = .name id c) :
    visitCall env n cs = Vermin.gate env n (pushFn id ;; (addMember env id (some n.line) (some n.col) ;; Vermin.callCodecs env n id ;;
      Vermin.callSpecial env n id ;; Vermin.checkUnpacking env n ;; Vermin.gen env n cs) ;; popFn) := by
  unfold visitCall
  rw [hf]
  show Vermin.gate env n (Vermin.callFunc env n f ;; _ ;; _ ;; _) = _
  unfold callFunc
  rw [hk]
  show Vermin.gate env n (Vermin.callName env n id ;; _ ;; _ ;; _) = _
  unfold callName
  simp only [seq_assoc]
omit h hA in
theorem visitCall_attr {attr : String} {f : Node} (env : Env) (cs : List Child) (hf : n.field .func = some f) (hk : f.kind = .attribute attr) :
    visitCall env n cs = Vermin.gate env n (Vermin.callAttrSpecial env n f attr ;; V.rd fun s => V.lift (dottedAttr s.moduleAs f) fun name =>
      pushFn name ;; (Vermin.checkCodecsFunction env name n ;; V.when (decide (name = "array.array")) (Vermin.typecodeArgs n 12) ;;
      Vermin.checkUnpacking env n ;; Vermin.gen env n cs) ;; popFn) := by
  unfold visitCall
  rw [hf]
  show Vermin.gate env n (Vermin.callFunc env n f ;; _ ;; _ ;; _) = _
  unfold callFunc
  rw [hk]
  show Vermin.gate env n (Vermin.callAttr env n f attr ;; _ ;; _ ;; _) = _
  unfold callAttr
  simp only [seq_assoc, rd_seq, lift_seq]
omit h hA in
theorem visitCall_other (env : Env) (cs : List Child) (hf : ∀ f, n.field .func = some f → (∀ id c, f.kind ≠ .name id c) ∧ ∀ a, f.kind ≠ .attribute a) :
    visitCall env n cs = Vermin.gate env n (V.skip ;; Vermin.checkUnpacking env n ;; Vermin.gen env n cs ;; popFn) := by
  unfold visitCall
  cases hfn : n.field .func with
  | none => rfl
  | some f =>
    show Vermin.gate env n (Vermin.callFunc env n f ;; _ ;; _ ;; _) = _
    unfold callFunc
    split
    · rename_i hk; exact absurd hk ((hf f hfn).1 _ _)
    · rename_i hk; exact absurd hk ((hf f hfn).2 _)
    · rfl

theorem visitCall (hn : n.kind = .call) {cs cs' : List Child} (hk : Kin env d n Q cs cs') : Q (visitCall env n cs) (visitCall (env.show d) n cs') := by
  have hother : (∀ f, n.field .func = some f → (∀ id c, f.kind ≠ .name id c) ∧ ∀ a, f.kind ≠ .attribute a) →
      Q (Vermin.visitCall env n cs) (Vermin.visitCall (env.show d) n cs') := fun ho => by
    rw [visitCall_other env cs ho, visitCall_other (env.show d) cs' ho]
    exact h.gate fun _ => h.seq (h.seq (h.seq h.skip (h.checkUnpacking hA)) hk.all) (h.pop ⟨hn, ho⟩)
  cases hf : n.field .func with
  | none => exact hother fun f hf' => by rw [hf] at hf'; cases hf'
  | some f =>
    by_cases hname : ∃ id c, f.kind = .name id c
    · obtain ⟨id, c, hfk⟩ := hname
      rw [visitCall_name env cs hf hfk, visitCall_name (env.show d) cs' hf hfk]
      have hcn : CallsName n id := ⟨hn, by rw [hf]; simp [Node.nameId, hfk]⟩
      refine h.gate fun _ => h.callScope' ?_ ?_
      · exact fun s hs => hA _ ⟨s, hs, hn, f, hf, .inl ⟨c, hfk⟩⟩
      · exact h.seq (h.seq (h.seq (h.seq (h.member _ _ (hA _ (.inr (.inr (.inl hcn))))) (h.callCodecs hA hcn)) (h.callSpecial hA hcn)) (h.checkUnpacking hA)) hk.all
    · by_cases hattr : ∃ a, f.kind = .attribute a
      · obtain ⟨attr, ha⟩ := hattr
        rw [visitCall_attr env cs hf ha, visitCall_attr (env.show d) cs' hf ha]
        refine h.gate fun _ => h.seq (h.callAttrSpecial hA hn hf ha) (h.rd fun s x_ hs => ?_)
        refine h.lift (x := dottedAttr s.moduleAs f) (fun e he => ?_) fun name hname => ?_
        · obtain ⟨x, hx⟩ := dottedAttr_ok (ms := s.moduleAs) ha
          rw [hx] at he; cases he
        replace hname := dottedAttr_reads hname
        refine h.callScope ?_ ?_
        · exact hA _ ⟨s, hs, hn, f, hf, .inr ⟨⟨attr, ha⟩, hname⟩⟩
        · refine h.seq (h.seq (h.seq (h.checkCodecsFunction hA hn hs (.inr ⟨hn, f, attr, hf, ha, hname⟩)) (h.when fun hx => h.typecodeArgs hA hn ?_ _)) (h.checkUnpacking hA)) hk.all
          have hx := of_decide_eq_true hx
          exact .inr ⟨s, hs, .inr ⟨hn, f, hf, .inr ⟨⟨attr, ha⟩, hx ▸ hname⟩⟩⟩
      · exact hother fun f' hf' => by
          rw [hf] at hf'; injection hf' with hf'; subst hf'
          exact ⟨fun id c hk => hname ⟨id, c, hk⟩, fun a hk => hattr ⟨a, hk⟩⟩

omit h hA in
/-- The fuel of the loop is read where the loop starts. -/
theorem attribute_rd (env : Env) (n : Node) (cs : List Child) : Vermin.visitAttribute env n cs =
    ((V.rd fun s => V.lift (attributeName s.moduleAs n) fun full => V.when (!full.isEmpty)
      ((V.rd fun t => attrModules env full (dotted full) n.line (t.modules.length + 2) 0) ;;
       addMember env (dotted full) (some n.line) ;; attrNameRes env full n.line)) ;; Vermin.gen env n cs) := by
  unfold Vermin.visitAttribute
  congr 1
  funext s
  show V.lift _ _ s = V.lift _ _ s
  cases attributeName s.moduleAs n with
  | error e => rfl
  | ok full =>
    show V.when _ _ s = V.when _ _ s
    cases full.isEmpty <;> rfl

theorem visitAttribute {a : String} (hn : n.kind = .attribute a) {cs cs' : List Child} (hk : Kin env d n Q cs cs') :
    Q (visitAttribute env n cs) (visitAttribute (env.show d) n cs') := by
  rw [attribute_rd, attribute_rd]
  refine h.seq (h.rd fun s x_ hs => ?_) hk.all
  refine h.lift (x := attributeName s.moduleAs n) (fun e he => ?_) fun full hfull => h.when fun _ => ?_
  · obtain ⟨x, hx⟩ := attributeName_ok (ms := s.moduleAs) hn
    rw [hx] at he; cases he
  · have hm : ∀ s' m, I s' → MemberName s'.importMemMod s'.nameRes full m → A (.member m) := fun s' m hs' hm =>
      hA _ (.inr (.inr (.inr (.inl ⟨⟨a, hn⟩, s, s', full, hs, hs', reads_of hfull, hm⟩))))
    refine h.seq (h.seq (h.attrMods (fun s' m hs' hx hmm => hA _ (.inr (.inr ⟨⟨a, hn⟩, s, s', full, m, hs, hs', reads_of hfull, (fullText_eq full).symm, hx, hmm⟩)))
      fun s' mod hs' hmod => ?_) (h.member _ _ (hm s _ hs (.inl (fullText_eq _).symm)))) (h.rd fun s' x_ hs' => ?_)
    · obtain ⟨x, hx, hmod⟩ := Option.bind_eq_some_iff.mp hmod
      exact hm s' _ hs' (.inr ⟨x, head_of_getD hx, .inl ⟨mod, hmod, (fullText_eq _).symm⟩⟩)
    refine h.opt (x := (full.head?.getD none).bind (Dict.get? s'.nameRes)) (fun _ => h.skip) fun res hres => ?_
    obtain ⟨x, hx, hres⟩ := Option.bind_eq_some_iff.mp hres
    have hx := head_of_getD hx
    refine h.seq (h.opt (x := Dict.get? s'.importMemMod res) (fun _ => h.member _ _ (hm s' _ hs' (.inr ⟨x, hx, .inr ⟨res, hres, .inl (fullText_eq _).symm⟩⟩)))
      fun mod hmod => h.member _ _ (hm s' _ hs' (.inr ⟨x, hx, .inr ⟨res, hres, .inr (.inl ⟨mod, hmod, (fullText_eq _).symm⟩)⟩⟩))) ?_
    unfold attrTwoTier
    obtain ⟨p, ps, hsp, hparts⟩ := splitDots_parts res
    rw [hsp]
    exact h.opt (x := Dict.get? s'.nameRes p) (fun _ => h.skip) fun w hw =>
      h.member _ _ (hm s' _ hs' (.inr ⟨x, hx, .inr ⟨res, hres, .inr (.inr ⟨p, ps, w, hparts, hw, (fullText_eq _).symm⟩)⟩⟩))

omit h hA in
theorem kwTarget_owner (s : S) (g : String) : KeywordOwner s.importMemMod s.nameRes g (kwTarget s g) := by
  obtain ⟨p, ps, hsp, hparts⟩ := splitDots_parts g
  unfold kwTarget
  rw [hsp, List.headD_cons]
  cases h1 : Dict.get? s.importMemMod g with
  | some mod => exact .inr ⟨p, ps, hparts, .inl ⟨mod, .inl h1, dotted_pair ..⟩⟩
  | none =>
    cases h2 : Dict.get? s.importMemMod p with
    | some mod => exact .inr ⟨p, ps, hparts, .inl ⟨mod, .inr h2, dotted_pair ..⟩⟩
    | none =>
      show KeywordOwner _ _ g (kwTargetVar s g)
      unfold kwTargetVar
      rw [hsp, List.headD_cons]
      cases h3 : Dict.get? s.nameRes p with
      | none => exact .inl rfl
      | some v =>
        simp only
        cases h4 : Dict.get? s.importMemMod v with
        | none => exact .inr ⟨p, ps, hparts, .inr ⟨v, h3, .inl (dotted_text ..)⟩⟩
        | some mod => exact .inr ⟨p, ps, hparts, .inr ⟨v, h3, .inr ⟨mod, h4, dotted_text mod (v :: ps)⟩⟩⟩

theorem visitKeyword {k : Option String} (hn : n.kind = .keyword k) {cs cs' : List Child} (hk : Kin env d n Q cs cs') :
    Q (visitKeyword env n k cs) (visitKeyword (env.show d) n k cs') := by
  refine h.rd fun s x_ hs => h.seq (h.each fun g hg => h.kwarg _ (hA _ ⟨hn, s, g, hs, hg, kwTarget_owner s g⟩)) ?_
  have e : (s.withOut x_).fnStack.any (fun f => kwargsAdded (env.show d) (s.withOut x_) (kwTarget (s.withOut x_) f) k) =
      s.fnStack.any fun f => kwargsAdded env s (kwTarget s f) k := by
    refine congrArg (s.fnStack.any ·) (funext fun f => ?_)
    show (!s.userDefs.contains (kwTarget s f) && !(env.show d).cfg.isExcludedKwarg (kwTarget s f) (kwText k)) = _
    rw [h.kwExcl]; rfl
  rw [e]
  exact h.when fun _ => hk.all

end Acting

theorem Closed.attrModules {env : Env} {d : Display} {n : Node} {I : S → Prop} {Q : V → V → Prop} {A : Event → Prop} (h : Closed env d n I Q A)
    (hA : ∀ ev, EmitsIn env I n ev → A ev) {a : String} (hn : n.kind = .attribute a) {s0 : S} (hs0 : I s0) {full : List (Option String)}
    (hfull : attributeName s0.moduleAs n = .ok full) (k i : Nat) :
    Q (attrModules env full (dotted full) n.line k i) (attrModules (env.show d) full (dotted full) n.line k i) :=
  attrLoop_of h.skip h.seq h.rdMods (fun l c h1 _ => h.module (some l) c h1) (fun l c h1 _ => h.member (some l) c h1)
    (fun s m hs hx hmm => hA _ (.inr (.inr ⟨⟨a, hn⟩, s0, s, full, m, hs0, hs, reads_of hfull, (fullText_eq full).symm, hx, hmm⟩)))
    (fun s mod hs hmod => by
      obtain ⟨x, hx, hmod⟩ := Option.bind_eq_some_iff.mp hmod
      exact hA _ (.inr (.inr (.inr (.inl ⟨⟨a, hn⟩, s0, s, full, hs0, hs, reads_of hfull, .inr ⟨x, Acting.head_of_getD hx, .inl ⟨mod, hmod, (fullText_eq _).symm⟩⟩⟩)))))
    k i

end Vermin
