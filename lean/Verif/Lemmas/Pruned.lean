import Verif.Lemmas.Reach
import Verif.Spec.Pruned
/-
Marked statements do not influence the visit.
-/
namespace Vermin
open Py V Spec

theorem marked_skip {env : Env} {k : Node} (h : Marked env k) : visit env k = skip := by
  obtain ⟨hm, hl⟩ := h
  have hg : ∀ v, gate env k v = skip := fun v => by
    unfold gate Env.isNoLine
    rw [if_pos (List.contains_iff_mem.mpr hl)]
  rw [visitMk env k]
  unfold visitAlg
  cases hk : k.kind <;> rw [hk] at hm <;> first
    | exact absurd hm id
    | exact hg _
    | skip
  case importFrom m l =>
    show visitImportFrom env k m l = skip
    unfold visitImportFrom
    cases m with
    | none => rfl
    | some m =>
      show V.when _ (gate env k _) = _
      rw [hg]
      unfold V.when
      split <;> rfl

theorem skip_seq (a : V) : (skip ;; a) = a := rfl

theorem pruned_info {env : Env} {n m : Node} (h : Pruned env n m) : m.info = n.info := by
  cases h with
  | same => rfl
  | node => rfl

theorem genEnter_same {env : Env} (hp : env.cfg.printVisits = false) {n m : Node} (h : m.info = n.info) : genEnter env m = genEnter env n := by
  unfold genEnter
  rw [h, hp]
  rfl

/-- What visits look at of the parts of a node when some are changed; if not `fixed` then also its return annotation. -/
structure KidsSame (env : Env) (fixed : Prop) (p : Kind) (ks ks' : List Node) : Prop where
  visit : ∀ f : Fld → Bool, (f .returns = false ∨ fixed) →
    each Child.visit ((visitKids env ks').filter fun c => f c.node.fld) = each Child.visit ((visitKids env ks).filter fun c => f c.node.fld)
  gvisit : (∃ c, p = .classDef c) → each Child.gvisit ((visitKids env ks').filter fun c => decide (c.node.fld = .body)) =
    each Child.gvisit ((visitKids env ks).filter fun c => decide (c.node.fld = .body))
  fields : ∀ f, isBlock f = false → f ≠ .returns → (ks'.filter fun k => decide (k.fld = f)) = ks.filter fun k => decide (k.fld = f)
  field : ∀ f, isBlock f = false → f ≠ .returns → (ks'.find? fun k => decide (k.fld = f)) = ks.find? fun k => decide (k.fld = f)
  returns : (ks'.find? fun k => decide (k.fld = .returns)).isSome = (ks.find? fun k => decide (k.fld = .returns)).isSome

theorem KidsSame.all {env : Env} {fixed : Prop} (hx : fixed) {p : Kind} {ks ks' : List Node} (h : KidsSame env fixed p ks ks') :
    each Child.visit (visitKids env ks') = each Child.visit (visitKids env ks) := by
  have := h.visit (fun _ => true) (.inr hx)
  rwa [List.filter_eq_self.mpr fun _ _ => rfl, List.filter_eq_self.mpr fun _ _ => rfl] at this

theorem compound_same {env : Env} (hp : env.cfg.printVisits = false) {i : Info} {ks ks' : List Node} (hc : Compound i.kind)
    {fixed : Prop} (hx : fixed ∨ (IsFunctionKind i.kind ∧ env.cfg.evalAnnotations = false)) (h : KidsSame env fixed i.kind ks ks') :
    visitAlg env (.mk i ks') (visitKids env ks') = visitAlg env (.mk i ks) (visitKids env ks) ∧
    (fixed → gen env (.mk i ks') (visitKids env ks') = gen env (.mk i ks) (visitKids env ks)) := by
  have hgen' : fixed → gen env (.mk i ks') (visitKids env ks') = gen env (.mk i ks) (visitKids env ks) := by
    intro hx
    unfold gen
    rw [genEnter_same hp (n := .mk i ks) (m := .mk i ks') rfl, h.all hx]
  have hfs : ∀ f, isBlock f = false → f ≠ .returns → (Node.mk i ks').fields f = (Node.mk i ks).fields f := h.fields
  have hf : ∀ f, isBlock f = false → f ≠ .returns → (Node.mk i ks').field f = (Node.mk i ks).field f := h.field
  have hret : ((Node.mk i ks').field .returns).isSome = ((Node.mk i ks).field .returns).isSome := h.returns
  refine ⟨?_, hgen'⟩
  have hg : ∀ v, gate env (.mk i ks') v = gate env (.mk i ks) v := fun v => rfl
  have hfd : ∀ name, handleFunctionDef env (.mk i ks') name (visitKids env ks') = handleFunctionDef env (.mk i ks) name (visitKids env ks) := by
    intro name
    unfold handleFunctionDef
    have h1 : dirFuncs env (.mk i ks') name = dirFuncs env (.mk i ks) name := by
      unfold dirFuncs
      rw [hf .args rfl nofun]
      rfl
    have h2 : funcDecos env (.mk i ks') = funcDecos env (.mk i ks) := by
      unfold funcDecos decoLine checkRelaxed checkUserFuncDecos
      rw [hfs .decoratorList rfl nofun]
    have h3 : funcAnns env (.mk i ks') = funcAnns env (.mk i ks) := by
      unfold funcAnns paramsOf
      rw [hret, hf .args rfl nofun]
      have : ∀ l, argAnns env (.mk i ks') l = argAnns env (.mk i ks) l := by
        intro l
        induction l with
        | nil => rfl
        | cons a l ih => unfold argAnns; rw [ih]; rfl
      rw [this]
      rfl
    have h4 : gen env (dropReturns env (.mk i ks')) (dropReturnsKids env (visitKids env ks')) =
        gen env (dropReturns env (.mk i ks)) (dropReturnsKids env (visitKids env ks)) := by
      unfold gen
      rw [genEnter_same hp (n := dropReturns env (.mk i ks)) (m := dropReturns env (.mk i ks')) rfl]
      unfold dropReturnsKids
      rw [h.visit (fun f => env.cfg.evalAnnotations || decide (f ≠ .returns)) (by
        rcases hx with hx | ⟨_, hx⟩
        · exact .inr hx
        · left; rw [hx]; rfl)]
    rw [h1, h2, h3, h4]
  by_cases hfk : IsFunctionKind i.kind
  · have hk : (Node.mk i ks').kind = (Node.mk i ks).kind := rfl
    unfold visitAlg
    rw [hk]
    rcases hfk with ⟨name, hi⟩ | ⟨name, hi⟩
    · have hi : (Node.mk i ks).kind = _ := hi
      rw [hi]
      show visitFunctionDef _ _ _ _ = visitFunctionDef _ _ _ _
      unfold visitFunctionDef
      simp only [hfd, hg]
    · have hi : (Node.mk i ks).kind = _ := hi
      rw [hi]
      show visitAsyncFunctionDef _ _ _ _ = visitAsyncFunctionDef _ _ _ _
      unfold visitAsyncFunctionDef
      simp only [hfd, hg]
      rfl
  have hgen := hgen' (hx.resolve_right fun h => hfk h.1)
  have hhf : handleFor env (.mk i ks') (visitKids env ks') = handleFor env (.mk i ks) (visitKids env ks) := by
    unfold handleFor forDict
    rw [hf .target rfl nofun, hf .iter rfl nofun, hgen]
    rfl
  have hhw : handleWith env (.mk i ks') (visitKids env ks') = handleWith env (.mk i ks) (visitKids env ks) := by
    unfold handleWith multiWith isWithParen
    rw [hfs .items rfl nofun, hgen]
    rfl
  have hk : (Node.mk i ks').kind = (Node.mk i ks).kind := rfl
  unfold visitAlg
  rw [hk]
  cases hi : (Node.mk i ks).kind <;> (have hi' : i.kind = _ := hi; rw [hi'] at hc) <;> first
    | exact absurd hc id
    | exact hgen
    | skip
  case functionDef name => exact absurd (.inl ⟨name, hi'⟩) hfk
  case asyncFunctionDef name => exact absurd (.inr ⟨name, hi'⟩) hfk
  case classDef name =>
    unfold visitClassDef classDecos metaclassKw decoLine checkRelaxed bodyOf
    simp only [hfs .decoratorList rfl nofun, hfs .keywords rfl nofun, hgen, hg, h.gvisit ⟨name, hi'⟩]
  case «for» => exact hhf
  case asyncFor => unfold visitAsyncFor; simp only [hhf, hg]; rfl
  case «while» => unfold visitWhile; simp only [hgen, hg]
  case «if» => unfold visitGated; simp only [hgen, hg]
  case «with» => unfold visitWith; simp only [hhw, hg]; rfl
  case asyncWith => unfold visitAsyncWith; simp only [hhw, hg]; rfl
  case «match» => unfold visitMatch; simp only [hgen, hg]; rfl
  case «try» =>
    unfold visitTry finalOf
    have := h.visit (fun f => decide (f = .finalbody)) (.inl rfl)
    simp only [hgen, hg, this]
  case exceptHandler name =>
    unfold visitExceptHandler
    simp only [hgen, hg, hf .type rfl nofun]
    rfl

mutual
theorem pruned_node {env : Env} (hp : env.cfg.printVisits = false) : ∀ (n m : Node), Pruned env n m → visitNode env m = visitNode env n
  | .mk i ks, m, h => by
    cases h with
    | same => rfl
    | node hc hl =>
      unfold visitNode
      have := compound_same hp hc (.inl trivial) (pruned_kids hp ks _ i.kind hl)
      rw [this.1, this.2 trivial]
theorem pruned_kids {env : Env} (hp : env.cfg.printVisits = false) : ∀ (ks ks' : List Node) (p : Kind), PrunedList env p ks ks' → KidsSame env True p ks ks'
  | [], ks', p, h => by
    cases h
    exact ⟨fun _ _ => rfl, fun _ => rfl, fun _ _ _ => rfl, fun _ _ _ => rfl, rfl⟩
  | k :: ks, _, p, h => by
    cases h with
    | @keep _ _ _ ks' h =>
      have ih := pruned_kids hp ks ks' p h
      refine ⟨fun f hx => ?_, fun hc => ?_, fun f hf hr => ?_, fun f hf hr => ?_, ?_⟩
      · have := ih.visit f hx
        simp only [visitKids, List.filter_cons]
        split
        · simp only [each, this]
        · exact this
      · have := ih.gvisit hc
        simp only [visitKids, List.filter_cons]
        split
        · simp only [each, this]
        · exact this
      · simp only [List.filter_cons, ih.fields f hf hr]
      · simp only [List.find?_cons, ih.field f hf hr]
      · simp only [List.find?_cons]; split <;> simp only [ih.returns, Option.isSome_some]
    | @into _ _ k' _ ks' hb hk h =>
      have ih := pruned_kids hp ks ks' p h
      have hn := pruned_node hp k k' hk
      have hi : k'.fld = k.fld := by unfold Node.fld; rw [pruned_info hk]
      refine ⟨fun f hx => ?_, fun hc => ?_, fun f hf hr => ?_, fun f hf hr => ?_, ?_⟩
      · have := ih.visit f hx
        simp only [visitKids, List.filter_cons, hi, hn]
        split
        · simp only [each, this]
        · exact this
      · have := ih.gvisit hc
        simp only [visitKids, List.filter_cons, hi, hn]
        split
        · simp only [each, this]
        · exact this
      · have hne : ¬ k.fld = f := fun he => by rw [he, hf] at hb; cases hb
        simp only [List.filter_cons, ih.fields f hf hr, hi, hne, decide_false, Bool.false_eq_true, if_false]
      · have hne : ¬ k.fld = f := fun he => by rw [he, hf] at hb; cases hb
        simp only [List.find?_cons, ih.field f hf hr, hi, hne, decide_false]
      · simp only [List.find?_cons, hi]; split <;> simp only [ih.returns, Option.isSome_some]
    | drop hb hnc hm h =>
      have ih := pruned_kids hp ks _ p h
      have hv : (visitNode env k).1 = skip := marked_skip hm
      refine ⟨fun f hx => ?_, fun hc => ?_, fun f hf hr => ?_, fun f hf hr => ?_, ?_⟩
      · rw [ih.visit f hx]
        simp only [visitKids, List.filter_cons]
        split
        · simp only [each, hv]; rfl
        · rfl
      · obtain ⟨c, hc⟩ := hc
        exact absurd hc (hnc c)
      · have hne : ¬ k.fld = f := fun he => by rw [he, hf] at hb; cases hb
        rw [ih.fields f hf hr]
        simp only [List.filter_cons, hne, decide_false, Bool.false_eq_true, if_false]
      · have hne : ¬ k.fld = f := fun he => by rw [he, hf] at hb; cases hb
        rw [ih.field f hf hr]
        simp only [List.find?_cons, hne, decide_false]
      · have hne : ¬ k.fld = .returns := fun he => by rw [he] at hb; cases hb
        rw [ih.returns]
        simp only [List.find?_cons, hne, decide_false]
end

theorem pruned_visit {env : Env} (hp : env.cfg.printVisits = false) {n m : Node} (h : Pruned env n m) : visit env m = visit env n := by
  unfold visit
  rw [pruned_node hp n m h]

end Vermin
