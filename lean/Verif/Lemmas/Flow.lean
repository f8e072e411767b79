import Verif.Lemmas.OldVisits
import Verif.Lemmas.Found
/-
Programs that differ in their flow of control only are visited alike.
-/
namespace Vermin
open Py V Spec Node

variable {env : Env}

/-! ### The field a node is in -/

theorem attributeName_putIn (ma : Dict String String) (f : Fld) (n : Node) : attributeName ma (putIn f n) = attributeName ma n := by
  unfold attributeName
  rw [← attrLoop_putIn ma .value (walk (putIn f n)), walk_putIn, attrLoop_putIn]

theorem gen_putIn (hp : env.cfg.printVisits = false) (f : Fld) (n : Node) (cs : List Child) : gen env (putIn f n) cs = gen env n cs := by
  unfold gen
  rw [genEnter_quiet hp, genEnter_quiet hp, putIn_line]

theorem argAnns_line {n n' : Node} (h : n'.line = n.line) : ∀ l : List Node, argAnns env n' l = argAnns env n l
  | [] => rfl
  | a :: as => by simp only [argAnns, hasAnn, hasLitAnn, h, argAnns_line h as]

theorem visitAlg_putIn (hp : env.cfg.printVisits = false) (f : Fld) (n : Node) (cs : List Child) : visitAlg env (putIn f n) cs = visitAlg env n cs := by
  obtain ⟨i, ks⟩ := n
  have hg : gen env (.mk { i with fld := f } ks) cs = gen env (.mk i ks) cs := gen_putIn hp f (.mk i ks) cs
  have hd : ∀ cs, gen env (dropReturns env (.mk { i with fld := f } ks)) cs = gen env (dropReturns env (.mk i ks)) cs :=
    fun cs => gen_putIn hp f (dropReturns env (.mk i ks)) cs
  have ha : ∀ ma, attributeName ma (.mk { i with fld := f } ks) = attributeName ma (.mk i ks) := fun ma => attributeName_putIn ma f (.mk i ks)
  have hr : ∀ l, argAnns env (.mk { i with fld := f } ks) l = argAnns env (.mk i ks) l := argAnns_line rfl
  show visitAlg env (.mk { i with fld := f } ks) cs = _
  unfold visitAlg
  simp only [Node.kind, Node.info]
  split
  all_goals first
    | rfl
    | exact hg
    | (simp only [visitStarred, visitCall, visitAttribute, visitKeyword, visitBinOp, visitJoinedStr, visitAssign, visitAugAssign, visitAnnAssign,
        visitFunctionDef, visitAsyncFunctionDef, handleFunctionDef, visitLambda, visitAwait, visitClassDef, visitNamedExpr, visitArguments, visitNonlocal,
        visitYieldFrom, visitYield, visitRaise, visitExceptHandler, visitComp, visitSetComp, visitDictComp, visitComprehension, visitWith, visitAsyncWith,
        handleWith, visitDisplay, visitSet, visitSubscript, visitMatch, visitGated, handleFor, visitAsyncFor, visitWhile, visitTry, visitTypeAlias,
        visitOp, funcAnns, hg, hd, ha, hr]; try rfl)

theorem visitNode_putIn (hp : env.cfg.printVisits = false) (f : Fld) (n : Node) : visitNode env (putIn f n) = visitNode env n := by
  rw [visitNode_mk, visitNode_mk env n, putIn_kids, visitAlg_putIn hp, gen_putIn hp]

/-! ### Statements within others -/

theorem seq_assoc_flow (a b c : V) : (a ;; b) ;; c = a ;; (b ;; c) := by
  funext s
  show V.seq (V.seq a b) c s = V.seq a (V.seq b c) s
  unfold V.seq
  cases a s <;> rfl
theorem skip_seq' (a : V) : (skip ;; a) = a := rfl
theorem seq_skip' (a : V) : (a ;; skip) = a := by
  funext s
  show V.seq a skip s = a s
  unfold V.seq
  cases a s <;> rfl
theorem each_append' {α : Type} (f : α → V) : ∀ l m : List α, V.each f (l ++ m) = V.each f l ;; V.each f m
  | [], m => (skip_seq' _).symm
  | x :: l, m => by
    show f x ;; V.each f (l ++ m) = (f x ;; V.each f l) ;; V.each f m
    rw [each_append' f l m, seq_assoc_flow]

/-- The actions of visiting statements one after another. -/
def visits (env : Env) (l : List Node) : V := V.each Child.visit (visitKids env l)

theorem visits_append (l m : List Node) : visits env (l ++ m) = visits env l ;; visits env m := by
  unfold visits; rw [visitKids_append, each_append']

section
variable {i : Info} {pre post l m : List Node} {f : Fld} (hf : ∀ k ∈ l ++ m, k.fld = f)
include hf

theorem fields_within {g : Fld} (h : g ≠ f) : (Node.mk i (pre ++ l ++ post)).fields g = (Node.mk i (pre ++ m ++ post)).fields g := by
  have : ∀ l' : List Node, (∀ k ∈ l', k.fld = f) → l'.filter (fun k => decide (k.fld = g)) = [] := fun l' h' => by
    rw [List.filter_eq_nil_iff]
    intro k hk hd
    exact h ((of_decide_eq_true hd).symm.trans (h' k hk))
  simp only [Node.fields, Node.kids, List.filter_append, this l fun k hk => hf k (by simp [hk]), this m fun k hk => hf k (by simp [hk])]

theorem field_within {g : Fld} (h : g ≠ f) : (Node.mk i (pre ++ l ++ post)).field g = (Node.mk i (pre ++ m ++ post)).field g := by
  have := fields_within (i := i) (pre := pre) (post := post) hf h
  simp only [Node.fields] at this
  simp only [Node.field, ← List.head?_filter, this]

omit hf in
theorem visitKids_fields (q : Node → Bool) : ∀ l : List Node, (visitKids env l).filter (fun c => q c.node) = visitKids env (l.filter q)
  | [] => rfl
  | k :: l => by
    simp only [visitKids, List.filter_cons, visitKids_fields q l]
    split <;> rfl

omit hf in
theorem visits_within (hv : visits env l = visits env m) (pre post : List Node) : visits env (pre ++ l ++ post) = visits env (pre ++ m ++ post) := by
  simp only [visits_append, hv]

theorem filtered_within (hv : visits env l = visits env m) (q : Fld → Bool) :
    V.each Child.visit ((visitKids env (pre ++ l ++ post)).filter fun c => q c.node.fld) =
      V.each Child.visit ((visitKids env (pre ++ m ++ post)).filter fun c => q c.node.fld) := by
  have key : ∀ l' : List Node, (∀ k ∈ l', k.fld = f) → l'.filter (fun k => q k.fld) = if q f then l' else [] := fun l' h' => by
    split
    · rename_i hq
      exact List.filter_eq_self.mpr fun k hk => by rw [h' k hk, hq]
    · rename_i hq
      exact List.filter_eq_nil_iff.mpr fun k hk => by rw [h' k hk]; exact hq
  rw [visitKids_fields fun k => q k.fld, visitKids_fields fun k => q k.fld]
  simp only [List.filter_append, key l fun k hk => hf k (by simp [hk]), key m fun k hk => hf k (by simp [hk])]
  cases q f
  · rfl
  · exact visits_within hv _ _

omit hf in
theorem gen_within (hp : env.cfg.printVisits = false) (hv : visits env l = visits env m) :
    gen env (.mk i (pre ++ l ++ post)) (visitKids env (pre ++ l ++ post)) = gen env (.mk i (pre ++ m ++ post)) (visitKids env (pre ++ m ++ post)) := by
  unfold gen
  rw [genEnter_quiet hp, genEnter_quiet hp, show V.each Child.visit (visitKids env (pre ++ l ++ post)) = _ from visits_within hv pre post]
  rfl

theorem visit_within (hp : env.cfg.printVisits = false) (hs : OfStmts f) (hc : HasStmts i.kind) (hv : visits env l = visits env m) :
    (visitNode env (.mk i (pre ++ l ++ post))).1 = (visitNode env (.mk i (pre ++ m ++ post))).1 := by
  have hg := gen_within (i := i) (pre := pre) (post := post) hp hv
  have hno : ∀ g, g ≠ .body → g ≠ .orelse → g ≠ .finalbody → g ≠ f := by
    rintro g h1 h2 h3 rfl
    rcases hs with h | h | h <;> contradiction
  have hF := fun g h1 h2 h3 => fields_within (i := i) (pre := pre) (post := post) hf (hno g h1 h2 h3)
  have hI := fun g h1 h2 h3 => field_within (i := i) (pre := pre) (post := post) hf (hno g h1 h2 h3)
  have hfun : ∀ x, handleFunctionDef env (.mk i (pre ++ l ++ post)) x (visitKids env (pre ++ l ++ post)) =
      handleFunctionDef env (.mk i (pre ++ m ++ post)) x (visitKids env (pre ++ m ++ post)) := fun x => by
    have h1 : gen env (dropReturns env (.mk i (pre ++ l ++ post))) (dropReturnsKids env (visitKids env (pre ++ l ++ post))) =
        gen env (dropReturns env (.mk i (pre ++ m ++ post))) (dropReturnsKids env (visitKids env (pre ++ m ++ post))) := by
      unfold gen
      rw [genEnter_quiet hp, genEnter_quiet hp]
      unfold dropReturnsKids
      rw [filtered_within hf hv fun g => env.cfg.evalAnnotations || decide (g ≠ .returns)]
      rfl
    have h2 : ∀ as, argAnns env (.mk i (pre ++ l ++ post)) as = argAnns env (.mk i (pre ++ m ++ post)) as := argAnns_line rfl
    simp only [handleFunctionDef, h1, dirFuncs, funcDecos, decoLine, checkRelaxed, checkUserFuncDecos, funcAnns, paramsOf, h2, hasAnn,
      hF .decoratorList nofun nofun nofun, hI .args nofun nofun nofun, hI .returns nofun nofun nofun]
    rfl
  have hfor : handleFor env (.mk i (pre ++ l ++ post)) (visitKids env (pre ++ l ++ post)) =
      handleFor env (.mk i (pre ++ m ++ post)) (visitKids env (pre ++ m ++ post)) := by
    simp only [handleFor, hg, forDict, hI .target nofun nofun nofun, hI .iter nofun nofun nofun]
    rfl
  have hwith : handleWith env (.mk i (pre ++ l ++ post)) (visitKids env (pre ++ l ++ post)) =
      handleWith env (.mk i (pre ++ m ++ post)) (visitKids env (pre ++ m ++ post)) := by
    simp only [handleWith, hg, hF .items nofun nofun nofun]
    rfl
  rw [visitNode_mk, visitNode_mk env (.mk i (pre ++ m ++ post))]
  show visitAlg env (.mk i (pre ++ l ++ post)) (visitKids env (pre ++ l ++ post)) = visitAlg env (.mk i (pre ++ m ++ post)) (visitKids env (pre ++ m ++ post))
  unfold visitAlg
  rcases hc with h | ⟨x, h | h⟩ | h | h | h | h | h | h | h | h | ⟨x, h⟩ | h <;> simp only [Node.kind, Node.info, h]
  · exact hg
  · simp only [visitFunctionDef, hfun]; rfl
  · simp only [visitAsyncFunctionDef, hfun]; rfl
  · exact hfor
  · simp only [visitAsyncFor, hfor]; rfl
  · simp only [visitWhile, hg]; rfl
  · simp only [visitGated, hg]; rfl
  · simp only [visitWith, hwith]; rfl
  · simp only [visitAsyncWith, hwith]; rfl
  · simp only [visitTry, hg, finalOf]
    rw [filtered_within hf hv fun g => decide (g = .finalbody)]
    rfl
  · exact hg
  · simp only [visitExceptHandler, hg, hI .type nofun nofun nofun]; rfl
  · exact hg
end

/-! ### Sequences of statements -/

theorem visits_putIn (hp : env.cfg.printVisits = false) (f : Fld) : ∀ l : List Node, visits env (l.map (putIn f)) = visits env l
  | [] => rfl
  | k :: l => by
    have := visits_putIn hp f l
    simp only [visits, List.map_cons, visitKids, V.each, visitNode_putIn hp] at this ⊢
    rw [this]

theorem visits_one (n : Node) : visits env [n] = (visitNode env n).1 := by
  simp only [visits, visitKids, V.each]
  exact seq_skip' _

theorem flow_nothing {n : Node} (h : n.kind = .pass ∨ n.kind = .break) : visits env [n] = visits env [] := by
  rw [visits_one, visitNode_mk]
  show visitAlg env n _ = skip
  unfold visitAlg
  rcases h with h | h <;> rw [h]

theorem flow_plain (hp : env.cfg.printVisits = false) {i : Info} {e : Node} (h : i.kind = .ret ∨ i.kind = .assert) :
    visits env [.mk i [e]] = visits env [asStmt i e] := by
  rw [visits_one, visits_one, visitNode_mk, visitNode_mk]
  show visitAlg env (.mk i [e]) (visitKids env [e]) = visitAlg env (asStmt i e) (visitKids env [putIn .value e])
  have : visitAlg env (asStmt i e) (visitKids env [putIn .value e]) = gen env (asStmt i e) (visitKids env [putIn .value e]) := rfl
  rw [this]
  have : visitAlg env (.mk i [e]) (visitKids env [e]) = gen env (.mk i [e]) (visitKids env [e]) := by
    unfold visitAlg
    simp only [Node.kind, Node.info]
    rcases h with h | h <;> rw [h]
  rw [this]
  unfold gen
  rw [genEnter_quiet hp, genEnter_quiet hp]
  have : V.each Child.visit (visitKids env [putIn .value e]) = V.each Child.visit (visitKids env [e]) := visits_putIn hp .value [e]
  rw [this]
  rfl

theorem flow_cond (hp : env.cfg.printVisits = false) {i : Info} {e : Node} {l m : List Node} (h : i.kind = .if) (hn : ∃ n, i.line = some n ∧ n ∉ env.noLines)
    (hu : ∀ k ∈ e :: l ++ m, ∀ o, In o k → Undirected env o) :
    visits env [.mk i (e :: l ++ m)] = visits env (asStmt i e :: (l ++ m).map (putIn i.fld)) := by
  have hsh : ∀ ks : List Node, (∀ k ∈ ks, k ∈ e :: l ++ m) → Shifts (V.each Child.visit (visitKids env ks)) := fun ks hks =>
    .each _ (visitKids_shifts hp ks fun k hk o ho => hu k (hks k hk) o ho).visit
  obtain ⟨n, hl, hn⟩ := hn
  have hif : (visitNode env (.mk i (e :: l ++ m))).1 = gen env (.mk i (e :: l ++ m)) (visitKids env (e :: l ++ m)) := by
    rw [visitNode_mk]
    show visitAlg env (.mk i (e :: l ++ m)) (visitKids env (e :: l ++ m)) = _
    unfold visitAlg
    simp only [Node.kind, Node.info, h, visitGated, gate, Node.line, hl, Option.getD_some, Env.isNoLine]
    rw [if_neg (by simpa using hn)]
  have hex : (visitNode env (asStmt i e)).1 = gen env (asStmt i e) (visitKids env [putIn .value e]) := by rw [visitNode_mk]; rfl
  have hv : V.each Child.visit (visitKids env [putIn .value e]) = V.each Child.visit (visitKids env [e]) := visits_putIn hp .value [e]
  have happ : visits env (asStmt i e :: (l ++ m).map (putIn i.fld)) = visits env [asStmt i e] ;; visits env ((l ++ m).map (putIn i.fld)) :=
    visits_append [asStmt i e] _
  rw [happ, visits_putIn hp, visits_one, visits_one, hif, hex, gen_nested hp _ (hsh _ fun _ h => h),
    gen_nested hp _ (by rw [hv]; exact hsh [e] fun _ h => by rw [List.mem_singleton.mp h]; simp), hv]
  have : V.each Child.visit (visitKids env (e :: l ++ m)) = V.each Child.visit (visitKids env [e]) ;; visits env (l ++ m) := visits_append [e] (l ++ m)
  rw [this, seq_assoc_flow]
  rfl

theorem inside_compound (hp : env.cfg.printVisits = false) {i : Info} {pre post l m : List Node} {f : Fld} (hc : HasStmts i.kind) (hs : OfStmts f)
    (hf : ∀ k ∈ l ++ m, k.fld = f) (ih : visits env l = visits env m) :
    visitNode env (.mk i (pre ++ l ++ post)) = visitNode env (.mk i (pre ++ m ++ post)) := by
  refine Prod.ext (visit_within hf hp hs hc ih) ?_
  rw [visitNode_mk, visitNode_mk]
  exact gen_within hp ih

theorem inside_cls (hp : env.cfg.printVisits = false) {i : Info} {pre post : List Node} {k k' : Node} {x : String} (hc : i.kind = .classDef x)
    (hk : k.fld = .body) (hk' : k'.fld = .body) (ih : visitNode env k = visitNode env k') :
    visitNode env (.mk i (pre ++ [k] ++ post)) = visitNode env (.mk i (pre ++ [k'] ++ post)) := by
  have hv : visits env [k] = visits env [k'] := by rw [visits_one, visits_one, ih]
  have hf : ∀ o ∈ [k] ++ [k'], o.fld = .body := fun o ho => by
    rcases List.mem_append.mp ho with ho | ho <;> rw [List.mem_singleton.mp ho] <;> assumption
  have hg := gen_within (i := i) (pre := pre) (post := post) hp hv
  rw [visitNode_mk, visitNode_mk env (.mk i (pre ++ [k'] ++ post))]
  refine Prod.ext ?_ hg
  show visitAlg env (.mk i (pre ++ [k] ++ post)) (visitKids env (pre ++ [k] ++ post)) = visitAlg env (.mk i (pre ++ [k'] ++ post)) (visitKids env (pre ++ [k'] ++ post))
  have hb : V.each Child.gvisit (bodyOf (visitKids env (pre ++ [k] ++ post))) = V.each Child.gvisit (bodyOf (visitKids env (pre ++ [k'] ++ post))) := by
    unfold bodyOf
    have h1 : decide (k.fld = .body) = true := decide_eq_true hk
    have h2 : decide (k'.fld = .body) = true := decide_eq_true hk'
    simp only [visitKids_append, List.filter_append, each_append', visitKids, List.filter_cons, h1, h2, if_true, List.filter_nil, V.each, ih]
  unfold visitAlg
  simp only [Node.kind, Node.info, hc, visitClassDef, hg, hb, classDecos, decoLine, checkRelaxed, metaclassKw,
    fields_within (i := i) (pre := pre) (post := post) hf (g := .decoratorList) nofun, fields_within (i := i) (pre := pre) (post := post) hf (g := .keywords) nofun]
  rfl

theorem visits_flow (hp : env.cfg.printVisits = false) {l m : List Node} (h : SameFlow env l m) : visits env l = visits env m :=
  SameFlow.rec (motive_1 := fun l m _ => visits env l = visits env m) (motive_2 := fun n n' _ => visitNode env n = visitNode env n')
    (fun _ => rfl) (fun _ h => h.symm) (fun _ _ h1 h2 => h1.trans h2) (fun _ _ h1 h2 => by rw [visits_append, visits_append, h1, h2])
    flow_nothing (flow_plain hp) (flow_cond hp) (fun _ h => by rw [visits_one, visits_one, h])
    (fun hc hs hf _ ih => inside_compound hp hc hs hf ih) (fun hc hk hk' _ ih => inside_cls hp hc hk hk' ih) h

theorem tour_flow (hp : env.cfg.printVisits = false) {n n' : Node} (h : SameFlow env [n] [n']) : tour env n = tour env n' := by
  have := visits_flow hp h
  rw [visits_one, visits_one] at this
  unfold tour visit
  rw [this]

end Vermin
