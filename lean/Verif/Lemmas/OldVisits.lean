import Verif.Lemmas.OldTrees
/-
The visitor methods do the same for trees of Python 3.8 and for what 3.9 has in their place.
-/
namespace Vermin
open Py V Spec Node

variable {env : Env} {n n' : Node} {cs cs' : List Child}

/-- The children of a node of Python 3.8, and those of what 3.9 has in its place. -/
inductive Aged : List Child → List Child → Prop
  | nil : Aged [] []
  | cons {c c' : Child} {cs cs' : List Child} : c'.node = modern c.node → c'.visit = c.visit → (c.node.fld ≠ .slice → c'.gvisit = c.gvisit) →
      Aged cs cs' → Aged (c :: cs) (c' :: cs')

theorem Aged.visit (h : Aged cs cs') : V.each Child.visit cs' = V.each Child.visit cs := by
  induction h with
  | nil => rfl
  | cons _ hv _ _ ih => rw [V.each, V.each, hv, ih]
theorem Aged.filter (h : Aged cs cs') (p : Fld → Bool) : Aged (cs.filter fun c => p c.node.fld) (cs'.filter fun c => p c.node.fld) := by
  induction h with
  | nil => exact .nil
  | cons hn hv hg _ ih =>
    rw [List.filter_cons, List.filter_cons, hn, modern_fld]
    split
    · exact .cons hn hv hg ih
    · exact ih
theorem Aged.gvisit (h : Aged cs cs') (hf : ∀ c ∈ cs, c.node.fld ≠ .slice) : V.each Child.gvisit cs' = V.each Child.gvisit cs := by
  induction h with
  | nil => rfl
  | cons _ _ hg _ ih => rw [V.each, V.each, hg (hf _ (by simp)), ih fun c hc => hf c (by simp [hc])]

theorem gen_line (hp : env.cfg.printVisits = false) (h : n'.info.line = n.info.line) (hc : Aged cs cs') : gen env n' cs' = gen env n cs := by
  unfold gen genEnter
  rw [h, hc.visit, hp]
  rfl
theorem gen_old (hp : env.cfg.printVisits = false) (h : Looks n n') (hc : Aged cs cs') : gen env n' cs' = gen env n cs := gen_line hp h.line' hc
theorem gate_old (h : Looks n n') {v v' : V} (hv : v' = v) : gate env n' v' = gate env n v := by unfold gate; rw [h.line, hv]
theorem seq_old {a a' b b' : V} (ha : a' = a) (hb : b' = b) : (a' ;; b') = (a ;; b) := by rw [ha, hb]
theorem skip_seq_old (v : V) : (skip ;; v) = v := rfl

/-! ### Imports and calls -/

theorem visitImport_old (h : Looks n n') : visitImport env n' = visitImport env n :=
  gate_old h (h.eachField fun k _ hk => by simp only [importName, hk.aliasOf, h.line, h.col])
theorem visitImportFrom_old (h : Looks n n') (m : Option String) (l : Nat) : visitImportFrom env n' m l = visitImportFrom env n m l := by
  unfold visitImportFrom
  congr 1
  funext m
  congr 1
  exact gate_old h (seq_old (by rw [h.line, h.col]) (h.eachField fun k _ hk => by simp only [importFromName, hk.aliasOf, h.line, h.col]))
theorem checkUnpacking_old (h : Looks n n') : checkUnpacking env n' = checkUnpacking env n := by unfold checkUnpacking; rw [h.unpacks]
theorem typecodeArgs_old (h : Looks n n') (k : Nat) : typecodeArgs n' k = typecodeArgs n k :=
  h.eachField fun a _ ha => by simp only [ha.strVal, h.line, h.col]
theorem argConst_old (h : Looks n n') (i : Nat) : ((n'.fields .args)[i]?).bind Node.constVal = ((n.fields .args)[i]?).bind Node.constVal := by
  rw [h.fields, List.getElem?_map]
  cases hk : (n.fields .args)[i]? with
  | none => rfl
  | some k => exact (h.ofFields (List.mem_of_getElem? hk) (by decide)).constVal
theorem encodingKws_old (h : Looks n n') : addCodecsEncodingKws env n' = addCodecsEncodingKws env n :=
  h.eachField fun k _ hk => by simp only [hk.isEncodingKw, hk.kwConst, h.line]
theorem checkCodecs_old (h : Looks n n') (f : String) : checkCodecsFunction env f n' = checkCodecsFunction env f n := by
  refine seq_old ?_ ?_
  · unfold addCodecsErrorHandler
    congr 1
    funext i
    exact seq_old (by simp only [argConst_old h, h.line]) (h.eachField fun k _ hk => by simp only [hk.kwArg, hk.kwConst, h.line])
  · have : addCodecsEncodingIdx env n' = addCodecsEncodingIdx env n := by
      funext i
      simp only [addCodecsEncodingIdx, argConst_old h, encodingKws_old h, h.line]
    rw [addCodecsEncoding, this]
    rfl
theorem callName_old (h : Looks n n') (id : String) : callName env n' id = callName env n id := by
  have hl : (n'.fields .args).length = (n.fields .args).length := by rw [h.fields, List.length_map]
  have he : (n'.fields .args).isEmpty = (n.fields .args).isEmpty := by rw [h.fields, List.isEmpty_map]
  simp only [callName, callCodecs, callSpecial, checkCodecs_old h, typecodeArgs_old h, h.isInversePow, h.line, h.col, hl, he]
theorem callAttr_old (h : Looks n n') {f f' : Node} (hf : Looks f f') {attr : String} (ha : f.kind = .attribute attr) :
    callAttr env n' f' attr = callAttr env n f attr := by
  refine seq_old ?_ ?_
  · unfold callAttrSpecial
    rw [hf.isFormat27, h.eachField (F := fun a => opt a.constVal skip (strftimeArg n)) fun k _ hk => by
      have : strftimeArg n' = strftimeArg n := by funext c; simp only [strftimeArg, h.line]
      rw [hk.constVal, this]]
  · simp only [attrDotted_old _ hf ha, checkCodecs_old h, typecodeArgs_old h]
theorem callFunc_old (h : Looks n n') {f f' : Node} (hf : Looks f f') : callFunc env n' f' = callFunc env n f := by
  unfold callFunc
  rw [hf.kind]
  split
  · exact callName_old h _
  · rename_i ha; exact callAttr_old h hf ha
  · rfl
theorem visitAttribute_old (hp : env.cfg.printVisits = false) (h : Looks n n') (hc : Aged cs cs') {a : String} (ha : n.kind = .attribute a) :
    visitAttribute env n' cs' = visitAttribute env n cs := by
  simp only [visitAttribute, attributeName_old _ h (h.old.self.attrs a ha), h.line, gen_old hp h hc]

/-! ### Operators -/

theorem nameOrAttr_old (s : S) (h : Looks n n') : nameOrAttr s n' = nameOrAttr s n := by
  unfold nameOrAttr
  rw [h.kind]
  split
  · rfl
  · rename_i ha; rw [attrDotted_old _ h ha]
  · rfl
theorem isNoneOrName_old (s : S) (h : Looks n n') : isNoneOrName s n' = isNoneOrName s n := by simp only [isNoneOrName, h.isNoneNode, nameOrAttr_old s h]
theorem isUnionType_old (s : S) (h : Looks n n') : isUnionType s n' = isUnionType s n := by simp only [isUnionType, nameOrAttr_old s h]
theorem resolvesTo_old (s : S) (ts : List String) (h : Looks n n') : resolvesTo s ts n' = resolvesTo s ts n := by
  simp only [resolvesTo, resolveFullName, plainName_old _ h]
theorem binBitOr_old (h : Looks n n') {l l' r r' : Node} (hl : Looks l l') (hr : Looks r r') : binBitOr env n' l' r' = binBitOr env n l r := by
  simp only [binBitOr, isDictUnion, isDict_old _ hl, isDict_old _ hr, resolvesTo_old _ _ hl, resolvesTo_old _ _ hr, isNoneOrName_old _ hl, isNoneOrName_old _ hr, h.line]
theorem augBitOr_old (h : Looks n n') {l l' r r' : Node} (hl : Looks l l') (hr : Looks r r') : augBitOr env n' l' r' = augBitOr env n l r := by
  simp only [augBitOr, isDict_old _ hl, isDict_old _ hr, resolvesTo_old _ _ hl, isUnionType_old _ hl, isUnionType_old _ hr, h.line]
theorem visitBinOp_old (hp : env.cfg.printVisits = false) (h : Looks n n') (hc : Aged cs cs') : visitBinOp env n' cs' = visitBinOp env n cs := by
  unfold visitBinOp
  rw [h.operator, gen_old hp h hc, h.optField (F := binMod env) fun k _ hk => by simp only [binMod, hk.isBytes, hk.isBytearrayCall],
    h.optField (F := fun l => opt (n.field .right) skip fun r => binBitOr env n l r) fun l _ hl => h.optField fun r _ hr => binBitOr_old h hl hr]
theorem visitConstant_old (h : Looks n n') (c : Const) : visitConstant env n' c = visitConstant env n c := by
  simp only [visitConstant, visitEllipsis, h.line, h.uid]
theorem selfDocPair_old (s : S) {a b : Node} (ha : Looks a (modern a)) (hb : Looks b (modern b)) : selfDocPair s (modern a) (modern b) = selfDocPair s a b := by
  unfold selfDocPair
  rw [ha.strVal, hb.kind, hb.field]
  cases hk : b.field .value with
  | none => rfl
  | some e => simp only [Option.map_some, extractFstring_old _ (hb.old.kid (List.mem_of_find?_eq_some hk))]
theorem selfDoc_old (s : S) : ∀ l : List Node, (∀ k ∈ l, Looks k (modern k)) → selfDoc s (l.map modern) = selfDoc s l
  | [], _ => rfl
  | [_], _ => rfl
  | a :: b :: l, h => by
    have ih := selfDoc_old s (b :: l) fun k hk => h k (List.mem_cons_of_mem _ hk)
    rw [List.map_cons] at ih
    rw [List.map_cons, List.map_cons, selfDoc, selfDoc, selfDocPair_old s (h a (by simp)) (h b (by simp)), ih]
theorem visitJoinedStr_old (hp : env.cfg.printVisits = false) (h : Looks n n') (hc : Aged cs cs') : visitJoinedStr env n' cs' = visitJoinedStr env n cs := by
  simp only [visitJoinedStr, h.fields, selfDoc_old _ _ fun k hk => h.ofFields (f := .values) hk (by decide), gen_old hp h hc]

/-! ### Assignments -/

theorem assignedAttr_old (ma : Dict String String) (h : Looks n n') {a : String} (ha : n.kind = .attribute a) : assignedAttr ma n' = assignedAttr ma n := by
  simp only [assignedAttr, attrDotted_old _ h ha]
theorem assignedName_old (ma : Dict String String) (h : Looks n n') : assignedName ma n' = assignedName ma n := by
  unfold assignedName
  rw [h.kind]
  split
  · unfold assignedCall
    rw [h.field]
    cases hk : n.field .func with
    | none => rfl
    | some f =>
      have hf := h.ofField hk (by decide)
      simp only [Option.map_some]
      rw [hf.kind]
      split
      · rfl
      · rename_i ha; exact assignedAttr_old ma hf ha
      · rfl
  · rename_i ha; exact assignedAttr_old ma h ha
  all_goals rfl
theorem each_old {F G : Node → V} : ∀ l : List Node, (∀ k ∈ l, G (modern k) = F k) → V.each G (l.map modern) = V.each F l
  | [], _ => rfl
  | k :: l, h => by rw [List.map_cons, V.each, V.each, h k (by simp), each_old l fun x hx => h x (by simp [hx])]
theorem addNameResAssign_old (h : Looks n n') : addNameResAssign n' = addNameResAssign n := by
  refine h.optField fun v _ hv => ?_
  have : ∀ a, each (bindTarget a) (n'.kids.filter fun k => decide (k.fld = .targets) || decide (k.fld = .target)) =
      each (bindTarget a) (n.kids.filter fun k => decide (k.fld = .targets) || decide (k.fld = .target)) := fun a => by
    rw [h.filter _ fun k => by rw [modern_fld]]
    refine each_old _ fun k hk => ?_
    obtain ⟨h1, h2⟩ := List.mem_filter.mp hk
    have hl : Looks k (modern k) := h.kid h1 fun he => by rw [he] at h2; exact absurd h2 (by decide)
    simp only [bindTarget, hl.nameId]
  simp only [assignedName_old _ hv, this]
theorem visitAssign_old (hp : env.cfg.printVisits = false) (h : Looks n n') (hc : Aged cs cs') : visitAssign env n' cs' = visitAssign env n cs :=
  gate_old h (seq_old (seq_old (h.eachField fun k _ hk => addTargets_old hk) (addNameResAssign_old h)) (gen_old hp h hc))
theorem visitAugAssign_old (hp : env.cfg.printVisits = false) (h : Looks n n') (hc : Aged cs cs') : visitAugAssign env n' cs' = visitAugAssign env n cs := by
  refine gate_old h (seq_old (seq_old (seq_old (h.optField fun k _ hk => addUserDefNode_old hk) (addNameResAssign_old h)) ?_) (gen_old hp h hc))
  rw [h.operator]
  exact congrArg _ (h.optField fun t _ ht => h.optField fun v _ hv => augBitOr_old h ht hv)
theorem visitAnnAssign_old (hp : env.cfg.printVisits = false) (h : Looks n n') (hc : Aged cs cs') : visitAnnAssign env n' cs' = visitAnnAssign env n cs := by
  unfold visitAnnAssign
  refine gate_old h ?_
  rw [gen_old hp h hc, h.optField (F := addUserDefNode) fun k _ hk => addUserDefNode_old hk, addNameResAssign_old h,
    h.optField (F := annKind env n) fun k _ hk => by simp only [annKind, hk.isAnn, h.line], h.line]

/-! ### Functions and classes -/

theorem decoLine_old (h : Looks n n') : decoLine env n' = decoLine env n := by
  unfold decoLine
  rw [h.fields]
  have : ∀ l : List Node, (∀ k ∈ l, Looks k (modern k)) →
      ((l.map modern).find? fun d => !env.isNoLine d.line).map Node.line = (l.find? fun d => !env.isNoLine d.line).map Node.line := by
    intro l
    induction l with
    | nil => intro _; rfl
    | cons k l ih =>
      intro hl
      rw [List.map_cons, List.find?_cons, List.find?_cons, (hl k (by simp)).line]
      split
      · exact congrArg some (hl k (by simp)).line
      · exact ih fun x hx => hl x (by simp [hx])
  exact this _ fun k hk => h.ofFields hk (by decide)
theorem checkRelaxed_old (h : Looks n n') : checkRelaxed env n' = checkRelaxed env n :=
  h.eachField fun d _ hd => gate_old hd (by rw [relaxed_old _ _ hd.decoRoot, hd.line])
theorem checkUserFuncDecos_old (h : Looks n n') : checkUserFuncDecos env n' = checkUserFuncDecos env n :=
  h.eachField fun d _ hd => gate_old hd (by simp only [nameOrAttr_old _ hd, hd.line])
theorem isEmpty_old (h : Looks n n') (f : Fld) : (n'.fields f).isEmpty = (n.fields f).isEmpty := by rw [h.fields, List.isEmpty_map]
theorem length_old (h : Looks n n') (f : Fld) : (n'.fields f).length = (n.fields f).length := by rw [h.fields, List.length_map]
theorem isNone_old (h : Looks n n') (f : Fld) : (n'.field f).isNone = (n.field f).isNone := by rw [h.field, Option.isNone_map]
theorem isSome_old (h : Looks n n') (f : Fld) : (n'.field f).isSome = (n.field f).isSome := by rw [h.field, Option.isSome_map]
theorem dirFuncs_old (h : Looks n n') (x : String) : dirFuncs env n' x = dirFuncs env n x :=
  h.optField fun a _ ha => by simp only [isEmpty_old ha, length_old ha, isNone_old ha, h.line]
theorem isLiteralAnn_old (s : S) (h : Looks n n') (hw : SameWalk n) : isLiteralAnn s n' = isLiteralAnn s n := by
  simp only [isLiteralAnn, h.isAnn, dottedAttr_old _ h hw]
theorem hasLitAnn_old (h : Looks n n') : hasLitAnn env n' = hasLitAnn env n := by simp only [hasLitAnn, h.line]
theorem argAnns_old (h : Looks n n') : ∀ l : List Node, (∀ a ∈ l, Looks a (modern a) ∧ ∀ t, a.field .annotation = some t → SameWalk t) →
    argAnns env n' (l.map modern) = argAnns env n l
  | [], _ => rfl
  | a :: l, hl => by
    rw [List.map_cons, argAnns, argAnns, argAnns_old h l fun x hx => hl x (by simp [hx])]
    obtain ⟨ha, hw⟩ := hl a (by simp)
    refine ha.optField fun t ht hlt => ?_
    simp only [isLiteralAnn_old _ hlt (hw t ht), hasLitAnn_old h, hasAnn, h.line]
theorem funcAnns_old (h : Looks n n') : funcAnns env n' = funcAnns env n := by
  unfold funcAnns
  have h1 : hasAnn env n' = hasAnn env n := by simp only [hasAnn, h.line]
  have h2 : paramsOf n' = (paramsOf n).map modern := by
    unfold paramsOf
    rw [h.field]
    cases hk : n.field .args with
    | none => rfl
    | some as => exact (h.ofField hk (by decide)).fields _
  have h3 : ∀ a ∈ paramsOf n, Looks a (modern a) ∧ ∀ t, a.field .annotation = some t → SameWalk t := fun a ha => by
    unfold paramsOf at ha
    cases hk : n.field .args with
    | none => rw [hk] at ha; exact absurd ha List.not_mem_nil
    | some as =>
      rw [hk] at ha
      exact ⟨(h.ofField hk (by decide)).ofFields ha (by decide), h.old.self.params as hk a ha⟩
  rw [isSome_old h, h1, h2, argAnns_old h _ h3]
theorem funcDecos_old (h : Looks n n') : funcDecos env n' = funcDecos env n := by
  simp only [funcDecos, decoLine_old h, checkRelaxed_old h, checkUserFuncDecos_old h]
theorem handleFunctionDef_old (hp : env.cfg.printVisits = false) (h : Looks n n') (hc : Aged cs cs') (x : String) :
    handleFunctionDef env n' x cs' = handleFunctionDef env n x cs := by
  have hg : gen env (dropReturns env n') (dropReturnsKids env cs') = gen env (dropReturns env n) (dropReturnsKids env cs) :=
    gen_line hp (show n'.info.line = n.info.line from h.line') (hc.filter fun f => env.cfg.evalAnnotations || decide (f ≠ .returns))
  simp only [handleFunctionDef, dirFuncs_old h, funcDecos_old h, funcAnns_old h, hg]
theorem visitFunctionDef_old (hp : env.cfg.printVisits = false) (h : Looks n n') (hc : Aged cs cs') (x : String) :
    visitFunctionDef env n' x cs' = visitFunctionDef env n x cs := gate_old h (by rw [handleFunctionDef_old hp h hc])
theorem visitAsyncFunctionDef_old (hp : env.cfg.printVisits = false) (h : Looks n n') (hc : Aged cs cs') (x : String) :
    visitAsyncFunctionDef env n' x cs' = visitAsyncFunctionDef env n x cs := gate_old h (by rw [handleFunctionDef_old hp h hc, h.line])
theorem classDecos_old (h : Looks n n') : classDecos env n' = classDecos env n := by simp only [classDecos, decoLine_old h, checkRelaxed_old h]
theorem visitClassDef_old (hp : env.cfg.printVisits = false) (h : Looks n n') (hc : Aged cs cs') (x : String) :
    visitClassDef env n' x cs' = visitClassDef env n x cs := by
  refine gate_old h (seq_old (seq_old (seq_old (seq_old rfl (classDecos_old h)) (h.eachField fun k _ hk => by simp only [hk.kwArg])) (gen_old hp h hc)) ?_)
  refine (hc.filter fun f => decide (f = .body)).gvisit fun c hm => ?_
  rw [of_decide_eq_true (List.mem_filter.mp hm).2]
  decide
theorem visitArguments_old (hp : env.cfg.printVisits = false) (h : Looks n n') (hc : Aged cs cs') : visitArguments env n' cs' = visitArguments env n cs := by
  unfold visitArguments
  rw [isEmpty_old h, isEmpty_old h, gen_old hp h hc]
  refine seq_old (seq_old rfl ?_) rfl
  simp only [h.fields, ← List.map_append]
  refine each_old _ fun k hk => ?_
  have : Looks k (modern k) := by
    simp only [List.mem_append] at hk
    rcases hk with (((hk | hk) | hk) | hk) | hk <;> exact h.ofFields hk (by decide)
  rw [this.argName]

/-! ### Statements -/

theorem namesAsMembers_old (h : Looks n n') (hw : SameWalk n) : namesAsMembers env n' = namesAsMembers env n := by
  unfold namesAsMembers
  generalize hF : (fun m : Node => opt m.nameId skip fun id => addMember env id (some m.line) (some m.col)) = F
  have hput : ∀ m f, F (putIn f m) = F m := fun m f => by
    subst hF
    simp only [Node.nameId, putIn_kind, Node.line, putIn_line, Node.col, putIn_col]
  have hold : ∀ {m m'}, Looks m m' → F m' = F m := fun hm => by subst hF; simp only [hm.nameId, hm.line, hm.col]
  have hidx : ∀ m, m.kind = .index → F m = skip := fun m hm => by
    subst hF
    simp only [Node.nameId, hm]
    rfl
  have e1 : ∀ l : List Node, V.each F (l.map (putIn .value)) = V.each F l := by
    intro l
    induction l with
    | nil => rfl
    | cons k l ih => rw [List.map_cons, V.each, V.each, hput, ih]
  have e2 : ∀ l : List Node, V.each F (l.filter fun m => decide (m.kind ≠ .index)) = V.each F l := by
    intro l
    induction l with
    | nil => rfl
    | cons k l ih =>
      by_cases hk : k.kind = .index
      · rw [List.filter_cons_of_neg (by simp [hk]), V.each, hidx k hk, ih]; rfl
      · rw [List.filter_cons_of_pos (by simp [hk]), V.each, V.each, ih]
  have e3 : ∀ l : List Node, (∀ k ∈ l, Looks k (modern k)) → V.each F (l.map fun m => putIn .value (modern m)) = V.each F l := by
    intro l
    induction l with
    | nil => intro _; rfl
    | cons k l ih => intro hl; rw [List.map_cons, V.each, V.each, hput, hold (hl k (by simp)), ih fun x hx => hl x (by simp [hx])]
  obtain ⟨f, rfl⟩ := h.eq
  rw [← e1 (walk (putIn f (modern n))), walk_putIn, hw, e3 _ fun k hk => walk_looks h.old hk, e2]
theorem visitRaise_old (hp : env.cfg.printVisits = false) (h : Looks n n') (hc : Aged cs cs') (hk : n.kind = .raise) : visitRaise env n' cs' = visitRaise env n cs :=
  gate_old h (seq_old (seq_old (seq_old (h.optField fun c _ hc => by simp only [raiseCauseOf, hc.isNoneNode, h.line])
    (h.optField fun e he hl => namesAsMembers_old hl (h.old.self.raised hk e (.inl he))))
    (h.optField fun e he hl => namesAsMembers_old hl (h.old.self.raised hk e (.inr he)))) (gen_old hp h hc))
theorem visitExceptHandler_old (hp : env.cfg.printVisits = false) (h : Looks n n') (hc : Aged cs cs') {x : Option String} (hk : n.kind = .exceptHandler x) :
    visitExceptHandler env n' x cs' = visitExceptHandler env n x cs :=
  gate_old h (seq_old (by simp only [isExceptStar, h.line, h.col]) (congrArg inScope (seq_old (seq_old rfl
    (h.optField fun e he hl => namesAsMembers_old hl (h.old.self.handled x hk e he))) (gen_old hp h hc))))
theorem visitComp_old (hp : env.cfg.printVisits = false) (h : Looks n n') (hc : Aged cs cs') : visitComp env n' cs' = visitComp env n cs :=
  congrArg inScope (seq_old (h.eachField fun c _ hl => hl.optField fun t _ ht => addTargets_old ht) (gen_old hp h hc))
theorem handleWith_old (hp : env.cfg.printVisits = false) (h : Looks n n') (hc : Aged cs cs') : handleWith env n' cs' = handleWith env n cs :=
  congrArg inScope (seq_old (seq_old (h.eachField fun c _ hl => hl.optField fun t _ ht => addTargets_old ht)
    (by simp only [length_old h, multiWith, isWithParen, h.line])) (gen_old hp h hc))
theorem markSubscript_old (h : Looks n n') : markSubscript n' = markSubscript n := by
  unfold markSubscript
  have hm : ∀ {k k' : Node}, Looks k k' → markEllipsis k' = markEllipsis k := fun h => by simp only [markEllipsis, h.isEllipsisNode, h.uid]
  rw [hm h, h.kind]
  split
  · exact seq_old rfl (h.eachField fun k _ hk => hm hk)
  · rfl
theorem markSlice_plain (h1 : n.kind ≠ .index) (h2 : n.kind ≠ .extSlice) : markSlice n = markSubscript n := by
  unfold markSlice
  split
  · rename_i h; exact absurd h h2
  · rename_i h; exact absurd h h1
  · rfl
theorem markSlice_looks (h : Looks n n') : markSlice n' = markSubscript n := by
  rw [markSlice_plain (by rw [h.kind]; exact h.plain) (by rw [h.kind]; exact h.old.self.slices), markSubscript_old h]
theorem markSlice_old (h : Old n) : markSlice (modern n) = markSlice n := by
  by_cases hk : n.kind = .index
  · obtain ⟨w, hw, hi, _, how, hm⟩ := index_value h hk
    rw [hm, markSlice_looks ((looks_modern how hi).put _)]
    unfold markSlice
    rw [hk, hw]
    rfl
  · rw [markSlice_looks (looks_modern h hk), markSlice_plain hk h.self.slices]
theorem visitSubscript_old (hp : env.cfg.printVisits = false) (h : Looks n n') (hc : Aged cs cs') : visitSubscript env n' cs' = visitSubscript env n cs := by
  refine gate_old h (seq_old (seq_old (h.optField fun v _ hv => by simp only [nameOrAttr_old _ hv]) ?_) (gen_old hp h hc))
  rw [h.field]
  cases hk : n.field .slice with
  | none => rfl
  | some s => exact markSlice_old (h.old.kid (List.mem_of_find?_eq_some hk))
theorem forDict_old (h : Looks n n') : forDict n' = forDict n := by
  unfold forDict
  rw [h.bindField .target fun h => h.nameId]
  congr 1
  funext id
  refine h.optField fun it _ hit => ?_
  have he : eltsOf (modern it) = (eltsOf it).map modern := hit.filter _ fun k => by rw [modern_fld]
  have hl : ∀ k ∈ eltsOf it, Looks k (modern k) := fun k hk => by
    obtain ⟨h1, h2⟩ := List.mem_filter.mp hk
    exact hit.kid h1 fun he => by rw [he] at h2; exact absurd h2 (by decide)
  simp only [he, anyDict_old _ _ hl]
theorem handleFor_old (hp : env.cfg.printVisits = false) (h : Looks n n') (hc : Aged cs cs') : handleFor env n' cs' = handleFor env n cs :=
  gate_old h (seq_old rfl (congrArg inScope (seq_old (seq_old (seq_old (h.optField fun t _ ht => addTargets_old ht) (forDict_old h)) (gen_old hp h hc)) rfl)))
theorem visitTry_old (hp : env.cfg.printVisits = false) (h : Looks n n') (hc : Aged cs cs') : visitTry env n' cs' = visitTry env n cs :=
  gate_old h (seq_old (seq_old (seq_old rfl (hc.filter fun f => decide (f = .finalbody)).visit) rfl) (gen_old hp h hc))
theorem visitOp_old (hp : env.cfg.printVisits = false) (h : Looks n n') (hc : Aged cs cs') (o : Op) : visitOp env n' o cs' = visitOp env n o cs := by
  simp only [visitOp, gen_old hp h hc]

theorem visitAlg_old (hp : env.cfg.printVisits = false) (h : Looks n n') (hc : Aged cs cs') : visitAlg env n' cs' = visitAlg env n cs := by
  have hg := gen_old hp h hc
  unfold visitAlg
  rw [h.kind]
  split
  · exact visitImport_old h
  · exact visitImportFrom_old h _ _
  · rfl
  · simp only [visitStarred, hg]
  · exact gate_old h (seq_old (seq_old (seq_old (h.optField fun f _ hf => callFunc_old h hf) (checkUnpacking_old h)) hg) rfl)
  · rename_i ha; exact visitAttribute_old hp h hc ha
  · simp only [visitKeyword, hg]
  · exact visitBinOp_old hp h hc
  · exact visitConstant_old h _
  · exact visitJoinedStr_old hp h hc
  · exact visitAssign_old hp h hc
  · exact visitAugAssign_old hp h hc
  · exact visitAnnAssign_old hp h hc
  · exact visitFunctionDef_old hp h hc _
  · exact visitAsyncFunctionDef_old hp h hc _
  · simp only [visitLambda, hg]
  · exact gate_old h (by rw [hg])
  · exact visitClassDef_old hp h hc _
  · exact gate_old h (by rw [hg, h.optField (F := addUserDefNode) fun k _ hk => addUserDefNode_old hk])
  · exact visitArguments_old hp h hc
  · exact gate_old h (by rw [hg])
  · exact gate_old h (by rw [hg])
  · exact gate_old h (by rw [hg])
  · rename_i hk; exact visitRaise_old hp h hc hk
  · rename_i hk; exact visitExceptHandler_old hp h hc hk
  · exact visitComp_old hp h hc
  · exact visitComp_old hp h hc
  · exact seq_old rfl (visitComp_old hp h hc)
  · exact seq_old rfl (visitComp_old hp h hc)
  · simp only [visitComprehension, hg]
  · simp only [visitContinue, h.line]
  · exact gate_old h (by rw [handleWith_old hp h hc, h.line])
  · exact gate_old h (by rw [handleWith_old hp h hc, h.line])
  · exact seq_old (checkUnpacking_old h) hg
  · exact seq_old (checkUnpacking_old h) hg
  · exact seq_old (checkUnpacking_old h) hg
  · exact seq_old (by rw [h.line]) (seq_old (checkUnpacking_old h) hg)
  · exact visitSubscript_old hp h hc
  · exact gate_old h (by rw [hg, h.line])
  · exact gate_old h hg
  · exact gate_old h hg
  · exact gate_old h hg
  · exact handleFor_old hp h hc
  · exact gate_old h (by rw [handleFor_old hp h hc, h.line])
  · exact gate_old h (by rw [hg])
  · exact visitTry_old hp h hc
  · exact gate_old h (by rw [hg])
  · exact visitOp_old hp h hc _
  · rfl
  · rfl
  · rfl
  · exact hg

/-! ### Trees -/

theorem visitNode_mk (env : Env) (n : Node) : visitNode env n = (visitAlg env n (visitKids env n.kids), gen env n (visitKids env n.kids)) := by
  obtain ⟨i, ks⟩ := n; rw [visitNode]; rfl

mutual
theorem visitNode_old (hp : env.cfg.printVisits = false) : (n : Node) → (∀ n', Looks n n' → visitNode env n' = visitNode env n) ∧
    (Old n → (visitNode env (modern n)).1 = (visitNode env n).1)
  | .mk i ks => by
    obtain ⟨hk, hl⟩ := visitKids_old hp ks
    have H : ∀ n', Looks (.mk i ks) n' → visitNode env n' = visitNode env (.mk i ks) := fun n' h => by
      have hc : Aged (visitKids env ks) (visitKids env n'.kids) := by
        rw [h.kids]
        exact hk fun k hkk => h.old.kid hkk
      rw [visitNode_mk, visitNode_mk env (.mk i ks)]
      exact Prod.ext (visitAlg_old hp h hc) (gen_old hp h hc)
    refine ⟨H, fun ho => ?_⟩
    by_cases hi : i.kind = .index
    · obtain ⟨w, hw, hf, hwi, hb⟩ := ho.self.value hi
      change ks = [w] at hw
      subst hw
      have hm : w ∈ [w] := List.mem_singleton_self _
      rw [modern_index hi, hl w hm _ ((looks_modern (ho.kid (k := w) hm) hwi).put _), visitNode_mk env (.mk i [w])]
      have hsh := (visitNode_shifts (env := env) hp w fun m hmw _ x hx => by
        have := ho.self.functions hi m (.kid (List.mem_singleton_self _) hmw) x
        exact hx.elim (absurd · this.1) (absurd · this.2)).1
      have hln : i.line = none := (ho.self.index hi).2
      unfold visitAlg
      rw [show (Node.mk i [w]).kind = .index from hi]
      show (visitNode env w).1 = gen env (.mk i [w]) (visitKids env [w])
      rw [gen_nested hp]
      · simp only [visitKids, V.each, show (Node.mk i [w]).info.line = none from hln]
        funext s
        show (visitNode env w).1 s = V.seq (visitNode env w).1 skip s
        unfold V.seq
        cases (visitNode env w).1 s <;> rfl
      · simp only [visitKids]
        exact .each _ fun c hcm => by
          rw [List.mem_singleton.mp hcm]; exact hsh
    · rw [H _ (looks_modern ho hi)]
theorem visitKids_old (hp : env.cfg.printVisits = false) : (ks : List Node) → ((∀ k ∈ ks, Old k) → Aged (visitKids env ks) (visitKids env (ks.map modern))) ∧
    ∀ k ∈ ks, ∀ k', Looks k k' → visitNode env k' = visitNode env k
  | [] => ⟨fun _ => .nil, nofun⟩
  | k :: ks => by
    have hk := visitNode_old hp k
    obtain ⟨h1, h2⟩ := visitKids_old hp ks
    refine ⟨fun h => ?_, fun x hx => ?_⟩
    · rw [List.map_cons, visitKids, visitKids]
      have ho := h k (by simp)
      exact .cons rfl (hk.2 ho) (fun hf => congrArg Prod.snd (hk.1 _ (looks_modern ho fun hi => hf (ho.self.index hi).1)))
        (h1 fun x hx => h x (by simp [hx]))
    · rcases List.mem_cons.mp hx with he | hx
      · rw [he]; exact hk.1
      · exact h2 x hx
end

theorem tour_old (hp : env.cfg.printVisits = false) (h : Old n) : tour env (modern n) = tour env n := by
  unfold tour visit
  rw [(visitNode_old hp n).2 h]

end Vermin
