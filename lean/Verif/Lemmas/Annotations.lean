import Verif.Lemmas.Pruned
import Verif.Lemmas.Certain
/-
Annotations that are not evaluated do not influence the visit.
-/
namespace Vermin
open Py V Spec

theorem isAnn_same {a a' : Node} {x : String} (h : AnnIs a' x ↔ AnnIs a x) : isAnn a' x = isAnn a x := by
  rw [Bool.eq_iff_iff]
  exact ⟨fun h' => isAnn_of (h.mp (isAnn_iff h')), fun h' => isAnn_of (h.mpr (isAnn_iff h'))⟩

theorem alike_assigned {v w : Node} (h : AlikeValues v w) (ms : Dict String String) : assignedName ms w = assignedName ms v := by
  cases h with
  | literal h1 h2 =>
    have : ∀ {n : Node} {t : String}, literalType n.kind = some t → assignedName ms n = .ok (.value t) := by
      intro n t h
      unfold assignedName
      unfold literalType at h
      split at h <;> first | (rename_i hk; rw [hk]; cases h; rfl) | (cases h; done)
    rw [this h1, this h2]
  | call h1 h2 hf =>
    unfold assignedName
    rw [h1, h2]
    simp only [assignedCall, hf]
  | untyped h1 h2 =>
    have : ∀ {n : Node}, Untyped n.kind → assignedName ms n = .ok .nothing := by
      intro n h
      unfold assignedName
      unfold Untyped at h
      split <;> first | rfl | (rename_i hk; rw [hk] at h; exact h.elim)
    rw [this h1, this h2]

theorem untyped_assigned {v : Node} (h : Untyped v.kind) (ms : Dict String String) : assignedName ms v = .ok .nothing := by
  unfold assignedName
  unfold Untyped at h
  split <;> first | rfl | (rename_i hk; rw [hk] at h; exact h.elim)

theorem annParts_find {ks ks' : List Node} (h : AnnParts ks ks') (f : Fld) (hf : f ≠ .annotation) (hf' : f ≠ .value) :
    (ks'.find? fun k => decide (k.fld = f)) = ks.find? fun k => decide (k.fld = f) := by
  induction h with
  | nil => rfl
  | keep _ ih => simp only [List.find?_cons, ih]
  | ann hk hk' _ _ _ ih =>
    have : ¬ (Fld.annotation = f) := fun h => hf h.symm
    simp only [List.find?_cons, ih, hk, hk', this, decide_false]
  | value hk hk' _ _ ih =>
    have : ¬ (Fld.value = f) := fun h => hf' h.symm
    simp only [List.find?_cons, ih, hk, hk', this, decide_false]
  | noValue hk _ _ _ ih =>
    have : ¬ (Fld.value = f) := fun h => hf' h.symm
    simp only [List.find?_cons, ih, hk, this, decide_false]

theorem annParts_targets {ks ks' : List Node} (h : AnnParts ks ks') :
    (ks'.filter fun k => decide (k.fld = .targets) || decide (k.fld = .target)) =
    ks.filter fun k => decide (k.fld = .targets) || decide (k.fld = .target) := by
  induction h with
  | nil => rfl
  | keep _ ih => simp only [List.filter_cons, ih]
  | ann hk hk' _ _ _ ih =>
    simp only [List.filter_cons, ih, hk, hk']
    rfl
  | value hk hk' _ _ ih =>
    simp only [List.filter_cons, ih, hk, hk']
    rfl
  | noValue hk _ _ _ ih =>
    simp only [List.filter_cons, ih, hk]
    rfl

/-- The values found are alike. -/
theorem annParts_value {ks ks' : List Node} (h : AnnParts ks ks') (g : Node → V) (hg : ∀ a a', AlikeValues a a' → g a' = g a)
    (hn : ∀ a, Untyped a.kind → g a = skip) :
    opt (ks'.find? fun k => decide (k.fld = .value)) skip g = opt (ks.find? fun k => decide (k.fld = .value)) skip g := by
  induction h with
  | nil => rfl
  | keep _ ih =>
    simp only [List.find?_cons]
    split
    · rfl
    · exact ih
  | ann hk hk' _ _ _ ih =>
    simp only [List.find?_cons, hk, hk']
    exact ih
  | value hk hk' ha _ ih =>
    simp only [List.find?_cons, hk, hk', decide_true]
    exact hg _ _ ha
  | @noValue _ _ ks' hk ho hx _ ih =>
    have : (ks'.find? fun k => decide (k.fld = .value)) = none := by
      rw [List.find?_eq_none]
      intro x h
      simpa using hx x h
    simp only [List.find?_cons, hk, decide_true, this]
    exact (hn _ ho).symm

/-- The annotations found are alike. -/
theorem annParts_annotation {ks ks' : List Node} (h : AnnParts ks ks') (g : Node → V)
    (hg : ∀ a a', isAnn a' "Final" = isAnn a "Final" → isAnn a' "Literal" = isAnn a "Literal" → g a' = g a) :
    opt (ks'.find? fun k => decide (k.fld = .annotation)) skip g = opt (ks.find? fun k => decide (k.fld = .annotation)) skip g := by
  induction h with
  | nil => rfl
  | keep _ ih =>
    simp only [List.find?_cons]
    split
    · rfl
    · exact ih
  | ann hk hk' h1 h2 _ ih =>
    simp only [List.find?_cons, hk, hk', decide_true]
    exact hg _ _ (isAnn_same h1) (isAnn_same h2)
  | value hk hk' _ _ ih =>
    simp only [List.find?_cons, hk, hk']
    exact ih
  | noValue hk _ _ _ ih =>
    simp only [List.find?_cons, hk]
    exact ih

theorem each_nothing (l : List Node) (s : S) : each (bindTarget .nothing) l s = .ok s := by
  induction l with
  | nil => rfl
  | cons t l ih =>
    have : bindTarget .nothing t = skip := by
      unfold bindTarget
      cases t.nameId <;> rfl
    unfold each
    rw [this]
    exact ih

theorem annAssign_same {env : Env} (he : env.cfg.evalAnnotations = false) {i : Info} {ks ks' : List Node} (hi : i.kind = .annAssign)
    (h : AnnParts ks ks') : visitAlg env (.mk i ks') (visitKids env ks') = visitAlg env (.mk i ks) (visitKids env ks) := by
  have hk : (Node.mk i ks').kind = .annAssign := hi
  have hk2 : (Node.mk i ks).kind = .annAssign := hi
  unfold visitAlg
  rw [hk, hk2]
  show visitAnnAssign _ _ _ = visitAnnAssign _ _ _
  have hg : ∀ v, gate env (.mk i ks') v = gate env (.mk i ks) v := fun v => rfl
  have ht : (Node.mk i ks').field .target = (Node.mk i ks).field .target := annParts_find h _ nofun nofun
  have hf := annParts_targets h
  have hr : addNameResAssign (.mk i ks') = addNameResAssign (.mk i ks) := by
    unfold addNameResAssign
    show (opt _ _ fun v => rd fun s => lift _ fun a => each _ (ks'.filter _)) = _
    rw [hf]
    refine annParts_value h _ (fun a a' ha => ?_) (fun a ha => ?_)
    · funext s
      simp only [rd, alike_assigned ha]
    · funext s
      simp only [rd, untyped_assigned ha]
      exact each_nothing _ s
  have ha : opt ((Node.mk i ks').field .annotation) skip (annKind env (.mk i ks')) =
      opt ((Node.mk i ks).field .annotation) skip (annKind env (.mk i ks)) :=
    annParts_annotation h (annKind env (.mk i ks)) (fun a a' h1 h2 => by unfold annKind; rw [h1, h2])
  unfold visitAnnAssign
  rw [hg, ht, hr, ha, he]
  rfl

theorem reannotated_info {b : Bool} {n m : Node} (h : Reannotated b n m) : m.info = n.info := by
  cases h <;> rfl

mutual
theorem reannotated_node {env : Env} (hp : env.cfg.printVisits = false) (he : env.cfg.evalAnnotations = false) : ∀ (c : Bool) (n m : Node),
    Reannotated c n m → (visitNode env m).1 = (visitNode env n).1 ∧ (c = true → (visitNode env m).2 = (visitNode env n).2)
  | c, .mk i ks, m, h => by
    cases h with
    | same => exact ⟨rfl, fun _ => rfl⟩
    | @node _ _ _ ks' hc hl =>
      have hk := reannotated_kids hp he c ks ks' i.kind hl
      unfold visitNode
      by_cases hf : IsFunctionKind i.kind
      · have := compound_same hp hc (.inr ⟨hf, he⟩) hk
        exact ⟨this.1, fun hc => this.2 (.inl hc)⟩
      · have := compound_same hp hc (.inl (.inr hf)) hk
        exact ⟨this.1, fun hc => this.2 (.inl hc)⟩
    | «variable» hi ha =>
      unfold visitNode
      exact ⟨annAssign_same he hi ha, nofun⟩
theorem reannotated_kids {env : Env} (hp : env.cfg.printVisits = false) (he : env.cfg.evalAnnotations = false) : ∀ (c : Bool) (ks ks' : List Node) (p : Kind),
    ReannotatedList c p ks ks' → KidsSame env (c = true ∨ ¬ IsFunctionKind p) p ks ks'
  | c, [], ks', p, h => by
    cases h
    exact ⟨fun _ _ => rfl, fun _ => rfl, fun _ _ _ => rfl, fun _ _ _ => rfl, rfl⟩
  | c, k :: ks, _, p, h => by
    cases h with
    | @keep _ _ _ _ ks' h =>
      have ih := reannotated_kids hp he c ks ks' p h
      refine ⟨fun f hx => ?_, fun hc => ?_, fun f hf hr => ?_, fun f hf hr => ?_, ?_⟩
      · have := ih.visit f hx
        simp only [visitKids, List.filter_cons]
        split
        · simp only [each, this]
        · exact this
      · have := ih.gvisit hc
        simp only [visitKids, List.filter_cons]
        split
        · simp only [each, this]
        · exact this
      · simp only [List.filter_cons, ih.fields f hf hr]
      · simp only [List.find?_cons, ih.field f hf hr]
      · simp only [List.find?_cons]; split <;> simp only [ih.returns, Option.isSome_some]
    | @into _ _ _ k' _ ks' b hb hcl hk h =>
      have ih := reannotated_kids hp he c ks ks' p h
      have hn := reannotated_node hp he b k k' hk
      have hi : k'.fld = k.fld := by unfold Node.fld; rw [reannotated_info hk]
      refine ⟨fun f hx => ?_, fun hc => ?_, fun f hf hr => ?_, fun f hf hr => ?_, ?_⟩
      · have := ih.visit f hx
        simp only [visitKids, List.filter_cons, hi]
        split
        · simp only [each, this, hn.1]
        · exact this
      · have := ih.gvisit hc
        obtain ⟨x, hc⟩ := hc
        have hbt : b = true := by
          cases b
          · exact absurd hc (hcl rfl x)
          · rfl
        simp only [visitKids, List.filter_cons, hi]
        split
        · simp only [each, this, hn.2 hbt]
        · exact this
      · have hne : ¬ k.fld = f := fun he => by rw [he, hf] at hb; cases hb
        simp only [List.filter_cons, ih.fields f hf hr, hi, hne, decide_false, Bool.false_eq_true, if_false]
      · have hne : ¬ k.fld = f := fun he => by rw [he, hf] at hb; cases hb
        simp only [List.find?_cons, ih.field f hf hr, hi, hne, decide_false]
      · simp only [List.find?_cons, hi]; split <;> simp only [ih.returns, Option.isSome_some]
    | @returns _ _ k' _ ks' hp' h1 h2 h =>
      have ih := reannotated_kids hp he false ks ks' p h
      refine ⟨fun f hx => ?_, fun hc => ?_, fun f hf hr => ?_, fun f hf hr => ?_, ?_⟩
      · have := ih.visit f hx
        have hfr : f .returns = false := hx.resolve_right (fun h => h.elim nofun fun h => h hp')
        simp only [visitKids, List.filter_cons, h1, h2, hfr, Bool.false_eq_true, if_false]
        exact this
      · obtain ⟨x, hc⟩ := hc
        rcases hp' with ⟨y, hy⟩ | ⟨y, hy⟩ <;> rw [hc] at hy <;> cases hy
      · have hne : ¬ Fld.returns = f := fun h => hr h.symm
        simp only [List.filter_cons, ih.fields f hf hr, h1, h2, hne, decide_false, Bool.false_eq_true, if_false]
      · have hne : ¬ Fld.returns = f := fun h => hr h.symm
        simp only [List.find?_cons, ih.field f hf hr, h1, h2, hne, decide_false]
      · simp only [List.find?_cons, h1, h2, decide_true, Option.isSome_some]
end

theorem reannotated_visit {env : Env} (hp : env.cfg.printVisits = false) (he : env.cfg.evalAnnotations = false) {c : Bool} {n m : Node}
    (h : Reannotated c n m) : visit env m = visit env n := (reannotated_node hp he c n m h).1

end Vermin
