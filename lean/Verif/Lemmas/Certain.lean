import Verif.Lemmas.Reach
/-
Constructs of the features in `Spec.certain` are detected when they are visited.
-/
namespace Vermin
open Py V Spec

/-! ### Tests of nodes -/

theorem levelsList_mem {x k : Node} : ∀ {ks : List Node}, k ∈ ks → x ∈ (levels (fun _ => false) k).flatten → x ∈ (levelsList (fun _ => false) ks).flatten
  | k' :: ks, hk, h => by
    unfold levelsList
    rw [mem_mergeLevels]
    rcases List.mem_cons.mp hk with hk | hk
    · rw [← hk]; exact .inl h
    · exact .inr (levelsList_mem hk h)
theorem levels_mem {n x : Node} (h : In x n) : x ∈ (levels (fun _ => false) n).flatten := by
  induction h with
  | self n => cases n with | mk i ks => unfold levels; simp
  | @kid n k x hk _ ih =>
    cases n with
    | mk i ks =>
      unfold levels
      simp only [Bool.false_eq_true, if_false, List.flatten_cons, List.mem_append]
      exact .inr (levelsList_mem hk ih)
theorem walk_mem {n x : Node} (h : In x n) : x ∈ walk n := levels_mem h

theorem format27_complete : ∀ (a b : List Char) (prev : Option Char), ((a = [] → prev ≠ some '{') ∧ (a ≠ [] → a.getLast? ≠ some '{')) →
    b.head? ≠ some '}' → format27From prev (a ++ '{' :: '}' :: b) = true
  | [], b, prev, h, hb => by
    simp only [List.nil_append, format27From, Bool.or_eq_true, Bool.and_eq_true, decide_eq_true_eq]
    exact .inl ⟨h.1 rfl, hb⟩
  | c :: a, b, prev, h, hb => by
    have ih := format27_complete a b (some c) ⟨fun ha => by subst ha; simpa using h.2 (by simp), fun ha => by
      have := h.2 (by simp); rwa [List.getLast?_cons_of_ne_nil ha] at this⟩ hb
    show format27From prev (c :: (a ++ '{' :: '}' :: b)) = true
    by_cases hc : ∃ r, c = '{' ∧ a ++ '{' :: '}' :: b = '}' :: r
    · obtain ⟨r, rfl, hr⟩ := hc
      rw [hr] at ih ⊢
      simp only [format27From, Bool.or_eq_true]
      exact .inr ih
    · rw [format27From]
      · exact ih
      · rintro r rfl hr; exact hc ⟨r, rfl, hr⟩

theorem format27_of {t : List Char} (h : AutoField t) : isSub "{}".toList t = true ∧ format27From none t = true := by
  obtain ⟨a, b, rfl, h1, h2⟩ := h
  refine ⟨?_, format27_complete a b none ⟨nofun, fun _ => h1⟩ h2⟩
  induction a with
  | nil => show (List.isPrefixOf _ _ || _) = true; simp [List.isPrefixOf]
  | cons c a ih =>
    show (List.isPrefixOf _ _ || isSub _ (a ++ '{' :: '}' :: b)) = true
    rw [ih (by
      cases a with
      | nil => simp
      | cons x a => rwa [List.getLast?_cons_of_ne_nil (by simp)] at h1)]
    simp

theorem positions_mem {α : Type} (p : α → Bool) : ∀ (l : List α) (i k : Nat) (a : α), l[k]? = some a → p a = true → i + k ∈ positions p i l
  | x :: l, i, 0, a, h, hp => by
    simp only [List.getElem?_cons_zero, Option.some.injEq] at h
    subst h
    unfold positions
    rw [if_pos hp]; exact .head _
  | x :: l, i, k + 1, a, h, hp => by
    have := positions_mem p l (i + 1) k a (by simpa using h) hp
    rw [show i + 1 + k = i + (k + 1) by omega] at this
    unfold positions
    split
    · exact .tail _ this
    · exact this

theorem unpackPositions_of {α : Type} {p : α → Bool} {P : α → Prop} (hp : ∀ a, P a → p a = true) {l : List α} (h : UnpacksArgs l P) :
    unpackPositions (positions p 0 l) l.length = true := by
  obtain ⟨i, a, hi, ha, h⟩ := h
  have h1 := positions_mem p l 0 i a hi (hp a ha)
  unfold unpackPositions
  rw [Bool.or_eq_true]
  rcases h with h | ⟨j, b, hj, hb, hpb⟩
  · right
    rw [List.any_eq_true]
    exact ⟨_, h1, by simpa using h⟩
  · left
    have h2 := positions_mem p l 0 j b hb (hp b hpb)
    rw [decide_eq_true_eq]
    match hps : positions p 0 l, h1, h2 with
    | [], h1, _ => cases h1
    | [x], h1, h2 =>
      simp only [List.mem_singleton] at h1 h2
      omega
    | x :: y :: r, _, _ => simp

theorem unpacks_of {env : Env} {n : Node} (h : Construct env .generalizedUnpacking n) : unpacks n = true := by
  rcases h with ⟨hn, h⟩ | ⟨hn, e, he, hu⟩ | ⟨l, hn, hl⟩
  · have : unpacks n = callUnpacks n := by unfold unpacks; rw [hn]
    rw [this]
    unfold callUnpacks
    rw [Bool.or_eq_true]
    refine h.imp (fun h => ?_) fun h => ?_
    · exact unpackPositions_of (fun a ha => by simpa [isValidStarUnpack, IsUnpacked] using ha) h
    · refine unpackPositions_of (fun a ha => ?_) h
      unfold kwArg
      split
      · rename_i x hx
        cases x with
        | none => rfl
        | some x => exact absurd ⟨x, hx⟩ ha
      · rfl
  · have hany : (n.fields .elts).any isValidStarUnpack = true := List.any_eq_true.mpr ⟨e, he, by simpa [isValidStarUnpack, IsUnpacked] using hu⟩
    rcases hn with ⟨c, hn⟩ | ⟨c, hn⟩ | hn
    · unfold unpacks; rw [hn]; exact hany
    · unfold unpacks; rw [hn]; exact hany
    · unfold unpacks; rw [hn]; exact hany
  · unfold unpacks
    rw [hn]
    exact List.any_eq_true.mpr ⟨true, hl, rfl⟩

theorem isExceptStar_of {env : Env} {n : Node} (h : ExceptStarText env n.line n.col) : isExceptStar env n = true := by
  obtain ⟨l, ws, rest, ⟨t, _, ht, hls, hl, hs⟩, hw, hd⟩ := h
  obtain rfl := lines_iff.mp hls
  have hsl : sourceLine env n.line = some l := by
    unfold sourceLine
    rw [ht]
    show (if n.line = 0 then none else _) = _
    rw [if_neg (by omega)]
    exact hs
  unfold isExceptStar
  rw [hsl]
  show (startsWith "except".toList (l.drop n.col) && startsWith ['*'] (lstrip ((l.drop n.col).drop 6))) = true
  rw [hd, Bool.and_eq_true]
  refine ⟨List.isPrefixOf_iff_prefix.mpr ⟨ws ++ '*' :: rest, by rw [List.append_assoc]⟩, ?_⟩
  have : ("except".toList ++ ws ++ '*' :: rest).drop 6 = ws ++ '*' :: rest := by rw [List.append_assoc]; rfl
  rw [this]
  unfold lstrip
  have hdw : (ws ++ '*' :: rest).dropWhile isSpace = '*' :: rest := by
    clear this hd
    induction ws with
    | nil => rfl
    | cons c ws ih =>
      simp only [List.cons_append, List.dropWhile_cons, (space_iff c).mpr (hw c (.head _)), if_true]
      exact ih fun c hc => hw c (.tail _ hc)
  rw [hdw]
  rfl

theorem nameId_of {a : Node} {x : String} {c : Ctx} (h : a.kind = .name x c) : a.nameId = some x := by unfold Node.nameId; rw [h]
theorem strVal_of {a : Node} {t : String} (h : a.kind = .const (.str t)) : a.strVal = some t := by unfold Node.strVal; rw [h]
theorem operator_of {n : Node} {o : Op} (h : HasOp n o) : operator n = some o := by
  obtain ⟨m, hm, hk⟩ := h
  unfold operator
  rw [hm]
  show m.opOf = _
  unfold Node.opOf
  rw [hk]
theorem isAnn_of {a : Node} {x : String} (h : AnnIs a x) : isAnn a x = true := by
  unfold isAnn
  rcases h with ⟨c, hc⟩ | ⟨hk, v, c, hv, hc⟩
  · simp [nameId_of hc]
  · simp [hk, hv, nameId_of hc]
theorem isNoneNode_of {n : Node} (h : n.kind = .const .none ∨ IsName n "None") : isNoneNode n = true := by
  unfold isNoneNode
  rcases h with h | ⟨c, h⟩ <;> simp [h]

/-! ### Detection -/

/-- What is found only grows. -/
def More (s t : S) : Prop := Grows { s with userDefs := [], seenFor := t.seenFor, seenWhile := t.seenWhile, tryFinally := t.tryFinally, seenYield := 0, seenAwait := 0 } t
theorem Rel.more : Rel More where
  trans {s t u} h k :=
    have h' : Grows { s with userDefs := [], seenFor := u.seenFor, seenWhile := u.seenWhile, tryFinally := u.tryFinally, seenYield := 0, seenAwait := 0 }
        { t with userDefs := [], seenFor := u.seenFor, seenWhile := u.seenWhile, tryFinally := u.tryFinally, seenYield := 0, seenAwait := 0 } :=
      { h with loops := rfl, defs := (fun _ h => nomatch h), yields := Nat.le_refl _, awaits := Nat.le_refl _ }
    h'.trans k
  grow h := { h with loops := rfl, defs := (fun _ h => nomatch h), yields := Nat.zero_le _, awaits := Nat.zero_le _ }
theorem more_defs (s : S) (d : List String) : More s { s with userDefs := d } := { Grows.refl { s with userDefs := [] } with defs := (fun _ h => nomatch h), yields := Nat.zero_le _, awaits := Nat.zero_le _ }
theorem more_loops (s : S) (f w : Nat) : More s { s with seenFor := f, seenWhile := w } :=
  { Grows.refl { s with userDefs := [], seenFor := f, seenWhile := w } with defs := (fun _ h => nomatch h), yields := Nat.zero_le _, awaits := Nat.zero_le _ }
theorem more_counts (s : S) (y w : Nat) : More s { s with seenYield := y, seenAwait := w } :=
  { Grows.refl { s with userDefs := [], seenYield := y, seenAwait := w } with defs := (fun _ h => nomatch h), yields := Nat.zero_le _, awaits := Nat.zero_le _ }

theorem more_reset {y w : S → Nat} : ∀ s t, upd (fun u => { u with seenYield := y u, seenAwait := w u }) s = .ok t → More s t := fun s t h => by
  rw [upd_run h]; exact more_counts s _ _

/-- What is found, and the definitions, only grow. -/
def Flat (s t : S) : Prop :=
  Grows { s with seenFor := t.seenFor, seenWhile := t.seenWhile, tryFinally := t.tryFinally, seenYield := 0, seenAwait := 0 } t
theorem Rel.flat : Rel Flat where
  trans {s t u} h k :=
    have h' : Grows { s with seenFor := u.seenFor, seenWhile := u.seenWhile, tryFinally := u.tryFinally, seenYield := 0, seenAwait := 0 }
        { t with seenFor := u.seenFor, seenWhile := u.seenWhile, tryFinally := u.tryFinally, seenYield := 0, seenAwait := 0 } :=
      { h with loops := rfl, yields := Nat.le_refl _, awaits := Nat.le_refl _ }
    h'.trans k
  grow h := { h with loops := rfl, yields := Nat.zero_le _, awaits := Nat.zero_le _ }
theorem flat_reset {y w : S → Nat} : ∀ s t, upd (fun u => { u with seenYield := y u, seenAwait := w u }) s = .ok t → Flat s t := fun s t h => by
  rw [upd_run h]; exact { Grows.refl { s with seenYield := y s, seenAwait := w s } with yields := Nat.zero_le _, awaits := Nat.zero_le _ }

namespace RunsIn
variable {R : S → S → Prop} (hR : Rel R) {g : V}
theorem opt {α : Type} {x : Option α} {a : V} {k : α → V} {v : α} (hx : x = some v) (h : RunsIn R g (k v)) : RunsIn R g (opt x a k) := by
  rw [hx]; exact h
theorem when {c : Bool} {a : V} (hc : c = true) (h : RunsIn R g a) : RunsIn R g (when c a) := by rw [hc]; exact h
theorem pos {c : Prop} [Decidable c] {a b : V} (hc : c) (h : RunsIn R g a) : RunsIn R g (if c then a else b) := by rw [if_pos hc]; exact h
include hR in
theorem found {env : Env} {f : Flag} {msg vs line pl} : RunsIn R (setFlag f) (found env f msg vs line pl) := .fst hR (.here hR) (.print _ _ _ _ _ _ _)
include hR in
theorem eachOf {α : Type} {f : α → V} {l : List α} {x : α} (hx : x ∈ l) (h : RunsIn R g (f x)) (hg : ∀ y ∈ l, Growing (f y)) : RunsIn R g (V.each f l) := by
  induction l with
  | nil => cases hx
  | cons y l ih =>
    rcases List.mem_cons.mp hx with rfl | hx
    · exact .fst hR h (.each fun y hy => hg y (.tail _ hy))
    · exact .snd hR (hg y (.head _)) (ih hx fun y hy => hg y (.tail _ hy))
end RunsIn

/-- A visit that is certain to set a flag. -/
def Sets (env : Env) (f : Flag) (n : Node) : Prop := RunsIn More (setFlag f) (visit env n)

section
variable {env : Env} {n : Node}

theorem gen_growing (env : Env) (n : Node) : Growing (gen env n (visitKids env n.kids)) := (closed_growing env n).generic n (kids_growing env n)

theorem visit_of {g : V} (h : RunsIn More g (visitAlg env n (visitKids env n.kids))) : RunsIn More g (visit env n) := by rw [visitMk]; exact h

theorem relaxed_growing (env : Env) (n : Node) : Growing (checkRelaxed env n) := .each fun d _ => by
  unfold gate
  exact .ite .skip (.when .found)

theorem decoLine_of {d : Node} (hd : d ∈ n.fields .decoratorList) (hl : d.line ∉ env.noLines) : ∃ l, decoLine env n = some l := by
  unfold decoLine
  cases hx : ((n.fields .decoratorList).find? fun d => !env.isNoLine d.line) with
  | none =>
    have := List.find?_eq_none.mp hx d hd
    simp [Env.isNoLine, hl] at this
  | some x => exact ⟨_, rfl⟩

/-- Constructs of these features are detected. -/
theorem certain_sets {f : Flag} (hf : f ∈ certain) (hc : Construct env f n) (hm : ¬ Marked env n) : Sets env f n := by
  have hR := Rel.more
  have hgen := gen_growing env n
  have hcl := closed_growing env n
  have hA : ∀ ev, Emits env n ev → True := fun _ _ => trivial
  have hkids := kids_growing env n
  have hline : Markable n.kind → n.line ∉ env.noLines := fun h1 h2 => hm ⟨h1, h2⟩
  have hscope : ∀ {g v : V}, RunsIn More g v → RunsIn More g (inScope v) := fun hv => .scope more_defs hR.trans hv
  have hfunc : ∀ {name : String} {g : V}, DefinesFunction n name → RunsIn More g (handleFunctionDef env n name (visitKids env n.kids)) → RunsIn More g (visit env n) := by
    intro name g hn h
    refine visit_of ?_
    unfold visitAlg
    rcases hn with hn | hn <;> simp only [hn]
    · exact .gate (hline (by rw [hn]; trivial)) (.rd fun s => .fstR hR h more_reset)
    · exact .gate (hline (by rw [hn]; trivial)) (.rd fun s => .fstR hR (.fst hR (.fst hR h .found) (.rd fun s' => .when .found)) more_reset)
  have hinner : ∀ name, DefinesFunction n name → Growing (inScope (gen env (dropReturns env n) (dropReturnsKids env (visitKids env n.kids)))) := fun name hn =>
    growing_inScope (hcl.generic _ (hkids.dropReturns (d := env.display)))
  have hdecos : ∀ {g : V}, IsFunction n → RunsIn More g (funcDecos env n) → RunsIn More g (visit env n) := by
    rintro g ⟨name, hn⟩ h
    exact hfunc hn (.fst hR (.fst hR (.snd hR (.seq (hcl.userDef trivial) (hcl.dirFuncs hA hn)) h) (hinner name hn)) (hcl.funcAnns hA ⟨name, hn⟩))
  have hclass : ∀ {g : V} {name : String}, n.kind = .classDef name →
      (RunsIn More g (classDecos env n) ∨ RunsIn More g (metaclassKw env n)) → RunsIn More g (visit env n) := by
    rintro g name hn h
    refine visit_of ?_
    unfold visitAlg
    simp only [hn]
    refine .gate (hline (by rw [hn]; trivial)) (.fst hR (.fst hR ?_ hgen) (hcl.eachGvisit hn (hkids.filter fun k => decide (k.fld = .body))))
    rcases h with h | h
    · exact .fst hR (.snd hR (.seq (hcl.userDef trivial) (hcl.nameResType trivial)) h) (hcl.metaclassKw hA hn)
    · exact .snd hR (.seq (.seq (hcl.userDef trivial) (hcl.nameResType trivial)) (hcl.classDecos hA hn)) h
  have hcall : ∀ {g : V} {fn : Node}, n.kind = .call → n.field .func = some fn → RunsIn More g (callFunc env n fn) → RunsIn More g (visit env n) := by
    intro g fn hn hfn h
    refine visit_of ?_
    unfold visitAlg
    simp only [hn]
    exact .gate (hline (by rw [hn]; trivial)) (.fst hR (.fst hR (.fst hR (.opt hfn h) (hcl.checkUnpacking hA)) hgen) growing_pop)
  simp only [certain, List.mem_cons, List.not_mem_nil, or_false] at hf
  unfold Sets
  rcases hf with rfl | rfl | rfl | rfl | rfl | rfl | rfl | rfl | rfl | rfl | rfl | rfl | rfl | rfl | rfl | rfl | rfl | rfl | rfl | rfl | rfl | rfl | rfl |
    rfl | rfl | rfl | rfl | rfl | rfl | rfl | rfl | rfl | rfl | rfl | rfl | rfl
  · -- printv3
    obtain ⟨hn, hp⟩ := hc
    obtain ⟨fn, hfn, hid⟩ := Option.bind_eq_some_iff.mp hp
    obtain ⟨c, hk⟩ := Acting.nameId_iff hid
    refine hcall hn hfn ?_
    unfold callFunc
    rw [hk]
    exact .snd hR (.seq (.seq (growing_push _) (hcl.member _ _ trivial)) (growing_callCodecs _)) (.rd fun s => .pos rfl (.here hR))
  · -- format27
    obtain ⟨e, t, ⟨hn, fn, hfn, hk, hv⟩, he, ht⟩ := hc
    refine hcall hn hfn ?_
    unfold callFunc
    rw [hk]
    refine .fst hR (.pos rfl (.when ?_ (.snd hR (.print _ _ _ _ _ _ _) (.here hR)))) (.rd fun s => .lift fun name => .seq (.seq (growing_push _) (growing_checkCodecsFunction _)) (.when (growing_typecodeArgs _)))
    unfold isFormat27
    rw [hv]
    show (match e.strVal with | some t => _ | none => _) = true
    rw [strVal_of he]
    have := format27_of ht
    show (_ && _) = true
    rw [this.1, this.2]; rfl
  · -- bytesv3
    obtain ⟨t, hn⟩ := hc
    refine visit_of ?_
    unfold visitAlg
    simp only [hn]
    exact .fst hR (.found hR) (.each fun d _ => hcl.bytesDir _ trivial)
  · -- fstrings
    have hn : n.kind = .joinedStr := hc
    refine visit_of ?_
    unfold visitAlg
    simp only [hn]
    exact .fst hR (.fst hR (.found hR) (.when (.rd fun s => .lift fun b => .when .found))) hgen
  · -- boolConst
    refine visit_of ?_
    unfold visitAlg
    rcases hc with ⟨b, hn⟩ | ⟨c, hn⟩ | ⟨c, hn⟩ <;> simp only [hn]
    · exact .fst hR (.here hR) (.print _ _ _ _ _ _ _)
    · exact .fst hR (.here hR) (.print _ _ _ _ _ _ _)
    · exact .fst hR (.here hR) (.print _ _ _ _ _ _ _)
  · -- annotations
    rcases hc with hn | ⟨⟨name, hn⟩, h⟩
    · refine visit_of ?_
      unfold visitAlg
      simp only [hn]
      exact .gate (hline (by rw [hn]; trivial)) (.fst hR (.fst hR (.snd hR (.seq (.seq (.optSkip fun t _ => hcl.addUserDefNode fun _ _ => trivial) (hcl.addNameResAssign hA (by simp [hn]))) (.alt hgen (growing_flag _)))
        (.here hR)) .found) (.optSkip fun a _ => .ite .found (.when .found)))
    · refine hfunc hn (.snd hR (.seq (.seq (.seq (hcl.userDef trivial) (hcl.dirFuncs hA hn)) (hcl.funcDecos hA ⟨name, hn⟩)) (hinner name hn)) ?_)
      unfold funcAnns
      cases hr : n.field .returns with
      | some r => exact .found hR
      | none =>
        rcases h with ⟨r, h⟩ | ⟨a, as, p, has, hp, ha⟩
        · rw [hr] at h; cases h
        · show RunsIn More _ (argAnns env n (paramsOf n))
          have : paramsOf n = as.fields .args := by unfold paramsOf; rw [has]
          rw [this]
          have hag : ∀ l, Growing (argAnns env n l) := fun l => by
            induction l with
            | nil => exact .skip
            | cons x l ih => exact .opt ih fun v _ => .seq .found (.rd fun s => .lift fun b => .alt (.alt .found (growing_flag _)) ih)
          clear this
          generalize as.fields .args = l at hp
          induction l with
          | nil => cases hp
          | cons x l ih =>
            cases hx : x.field .annotation with
            | some b =>
              refine .opt hx (.fst hR (.found hR) (.rd fun s => .lift fun b => .alt (.alt .found (growing_flag _)) (hag l)))
            | none =>
              rcases List.mem_cons.mp hp with rfl | hp
              · rw [hx] at ha; cases ha
              · unfold argAnns
                rw [hx]
                exact ih hp
  · -- varAnnotations
    have hn : n.kind = .annAssign := hc
    refine visit_of ?_
    unfold visitAlg
    simp only [hn]
    exact .gate (hline (by rw [hn]; trivial)) (.fst hR (.snd hR (.seq (.seq (.seq (.optSkip fun t _ => hcl.addUserDefNode fun _ _ => trivial) (hcl.addNameResAssign hA (by simp [hn]))) (.alt hgen (growing_flag _)))
      (growing_flag _)) (.found hR)) (.optSkip fun a _ => .ite .found (.when .found)))
  · -- finalAnnotations
    obtain ⟨hn, a, ha, hx⟩ := hc
    refine visit_of ?_
    unfold visitAlg
    simp only [hn]
    exact .gate (hline (by rw [hn]; trivial)) (.snd hR (.seq (.seq (.seq (.seq (.optSkip fun t _ => hcl.addUserDefNode fun _ _ => trivial) (hcl.addNameResAssign hA (by simp [hn]))) (.alt hgen (growing_flag _)))
      (growing_flag _)) .found) (.opt ha (.pos (isAnn_of hx) (.found hR))))
  · -- coroutines
    refine visit_of ?_
    unfold visitAlg
    rcases hc with ⟨name, hn⟩ | hn <;> simp only [hn]
    · exact .gate (hline (by rw [hn]; trivial)) (.rd fun s => .fstR hR (.fst hR (.snd hR (hcl.handleFunctionDef hA (.inr hn) (hcl.kin hkids)) (.found hR)) (.rd fun s' => .when .found))
        more_reset)
    · exact .gate (hline (by rw [hn]; trivial)) (.fst hR (.fst hR (.found hR) (growing_upd fun s => { Grows.refl s with awaits := Nat.le_succ _ })) hgen)
  · -- asyncComprehension
    have hn : n.kind = .comprehension true := hc
    refine visit_of ?_
    unfold visitAlg
    simp only [hn]
    exact .fst hR (.when rfl (.found hR)) (growing_reset (fun s => .seq hgen (.rd fun s' => .when .found)) fun _ _ h => ⟨h.yields, Nat.le_refl _⟩)
  · -- asyncFor
    have hn : n.kind = .asyncFor := hc
    refine visit_of ?_
    unfold visitAlg
    simp only [hn]
    exact .gate (hline (by rw [hn]; trivial)) (.fst hR (.found hR) (hcl.handleFor hA (.inr hn) (hcl.kin hkids)))
  · -- namedExprs
    have hn : n.kind = .namedExpr := hc
    refine visit_of ?_
    unfold visitAlg
    simp only [hn]
    exact .gate (hline (by rw [hn]; trivial)) (.fst hR (.snd hR (.optSkip fun t _ => hcl.addUserDefNode fun _ _ => trivial) (.found hR)) hgen)
  · -- kwOnlyArgs
    obtain ⟨hn, a, ha⟩ := hc
    refine visit_of ?_
    unfold visitAlg
    simp only [hn]
    refine .fst hR (.fst hR (.snd hR (.when .found) (.when ?_ (.found hR))) (.each fun a _ => .optSkip fun x _ => hcl.userDef trivial)) hgen
    cases hl : n.fields .kwonlyargs with
    | nil => rw [hl] at ha; cases ha
    | cons => rfl
  · -- posOnlyArgs
    obtain ⟨hn, a, ha⟩ := hc
    refine visit_of ?_
    unfold visitAlg
    simp only [hn]
    refine .fst hR (.fst hR (.fst hR (.when ?_ (.found hR)) (.when .found)) (.each fun a _ => .optSkip fun x _ => hcl.userDef trivial)) hgen
    cases hl : n.fields .posonlyargs with
    | nil => rw [hl] at ha; cases ha
    | cons => rfl
  · -- nonlocalStmt
    have hn : n.kind = .nonlocal := hc
    refine visit_of ?_
    unfold visitAlg
    simp only [hn]
    exact .gate (hline (by rw [hn]; trivial)) (.fst hR (.found hR) hgen)
  · -- yieldFrom
    have hn : n.kind = .yieldFrom := hc
    refine visit_of ?_
    unfold visitAlg
    simp only [hn]
    exact .gate (hline (by rw [hn]; trivial)) (.fst hR (.found hR) hgen)
  · -- raiseCause
    obtain ⟨hn, c, hcause⟩ := hc
    have hnm : ∀ e, Growing (namesAsMembers env e) := fun e => hcl.namesAsMembers hA fun _ _ _ _ => trivial
    refine visit_of ?_
    unfold visitAlg
    simp only [hn]
    exact .gate (hline (by rw [hn]; trivial)) (.fst hR (.fst hR (.fst hR (.opt hcause (.fst hR (.found hR) (.when .found)))
      (.optSkip fun e _ => hnm e)) (.optSkip fun e _ => hnm e)) hgen)
  · -- raiseFromNone
    obtain ⟨hn, c, hcause, hnone⟩ := hc
    have hnm : ∀ e, Growing (namesAsMembers env e) := fun e => hcl.namesAsMembers hA fun _ _ _ _ => trivial
    refine visit_of ?_
    unfold visitAlg
    simp only [hn]
    exact .gate (hline (by rw [hn]; trivial)) (.fst hR (.fst hR (.fst hR (.opt hcause (.snd hR .found (.when (isNoneNode_of hnone) (.found hR))))
      (.optSkip fun e _ => hnm e)) (.optSkip fun e _ => hnm e)) hgen)
  · -- setLiterals
    have hn : n.kind = .set := hc
    refine visit_of ?_
    unfold visitAlg
    simp only [hn]
    exact .fst hR (.found hR) (.seq (hcl.checkUnpacking hA) hgen)
  · -- setComp
    have hn : n.kind = .setComp := hc
    refine visit_of ?_
    unfold visitAlg
    simp only [hn]
    exact .fst hR (.found hR) (hcl.visitComp hA (by simp [hn]) (hcl.kin hkids))
  · -- dictComp
    have hn : n.kind = .dictComp := hc
    refine visit_of ?_
    unfold visitAlg
    simp only [hn]
    exact .fst hR (.found hR) (hcl.visitComp hA (by simp [hn]) (hcl.kin hkids))
  · -- matMult
    have hn : n.kind = .op .matMult := hc
    refine visit_of ?_
    unfold visitAlg
    simp only [hn]
    exact .fst hR (.found hR) hgen
  · -- withStatement
    have hn : n.kind = .with := hc
    refine visit_of ?_
    unfold visitAlg
    simp only [hn]
    exact .gate (hline (by rw [hn]; trivial)) (.fst hR (.found hR) (hcl.handleWith hA (.inl hn) (hcl.kin hkids)))
  · -- asyncWithStatement
    have hn : n.kind = .asyncWith := hc
    refine visit_of ?_
    unfold visitAlg
    simp only [hn]
    exact .gate (hline (by rw [hn]; trivial)) (.fst hR (.found hR) (hcl.handleWith hA (.inr hn) (hcl.kin hkids)))
  · -- multiWithitem
    obtain ⟨hn, hl⟩ := hc
    have key : RunsIn More (setFlag .multiWithitem) (handleWith env n (visitKids env n.kids)) := by
      exact hscope (.fst hR (.snd hR (.each fun w _ => .optSkip fun t _ => hcl.addTargets fun _ _ => trivial) (.when (decide_eq_true hl) (.fst hR (.found hR) (.when .found)))) hgen)
    refine visit_of ?_
    unfold visitAlg
    rcases hn with hn | hn <;> simp only [hn]
    · exact .gate (hline (by rw [hn]; trivial)) (.snd hR .found key)
    · exact .gate (hline (by rw [hn]; trivial)) (.snd hR .found key)
  · -- generalizedUnpacking
    have key : RunsIn More (setFlag .generalizedUnpacking) (checkUnpacking env n) := .when (unpacks_of hc) (.found hR)
    refine visit_of ?_
    unfold visitAlg
    rcases hc with ⟨hn, _⟩ | ⟨⟨c, hn⟩ | ⟨c, hn⟩ | hn, _⟩ | ⟨l, hn, _⟩ <;> simp only [hn]
    · refine .gate (hline (by rw [hn]; trivial)) (.fst hR (.fst hR (.snd hR (.optSkip fun f hf => ?_) key) hgen) growing_pop)
      unfold callFunc
      split
      · rename_i id c hfk
        exact growing_callName ⟨hn, by rw [hf]; simp [Node.nameId, hfk]⟩
      · rename_i attr hfk
        exact growing_callAttr hn hf hfk
      · exact .skip
    · exact .fst hR key hgen
    · exact .fst hR key hgen
    · exact .snd hR .found (.fst hR key hgen)
    · exact .fst hR key hgen
  · -- unpackingAssignment
    have hn : n.kind = .starred .store := hc
    refine visit_of ?_
    unfold visitAlg
    simp only [hn]
    exact .fst hR (.when rfl (.found hR)) hgen
  · -- typeAliasStatement
    have hn : n.kind = .typeAlias := hc
    refine visit_of ?_
    unfold visitAlg
    simp only [hn]
    exact .gate (hline (by rw [hn]; trivial)) (.fst hR (.found hR) hgen)
  · -- bytesFormat
    obtain ⟨hn, ho, l, t, hl, hk⟩ := hc
    refine visit_of ?_
    unfold visitAlg
    simp only [hn]
    refine .fst hR (.fst hR (.when (decide_eq_true (operator_of ho)) (.opt hl (.fst hR (.when ?_ (.found hR)) (.when .found)))) (.when (.optSkip fun l _ => .optSkip fun r _ =>
      .seq (.rd fun s => .lift fun b => .when .found) (.when (.rd fun s => .lift fun b => .when .found))))) hgen
    unfold isBytes; rw [hk]
  · -- bytearrayFormat
    obtain ⟨hn, ho, l, hl, hk, hid⟩ := hc
    refine visit_of ?_
    unfold visitAlg
    simp only [hn]
    refine .fst hR (.fst hR (.when (decide_eq_true (operator_of ho)) (.opt hl (.snd hR (.when .found) (.when ?_ (.found hR))))) (.when (.optSkip fun l _ => .optSkip fun r _ =>
      .seq (.rd fun s => .lift fun b => .when .found) (.when (.rd fun s => .lift fun b => .when .found))))) hgen
    simp [isBytearrayCall, Node.isCall, hk, hid]
  · -- functionDecorators
    obtain ⟨hn, d, hd, hl⟩ := hc
    obtain ⟨l, hl⟩ := decoLine_of hd hl
    exact hdecos hn (.opt hl (.fst hR (.fst hR (.found hR) (relaxed_growing env n)) (hcl.checkUserFuncDecos hA hn)))
  · -- classDecorators
    obtain ⟨⟨name, hn⟩, d, hd, hl⟩ := hc
    obtain ⟨l, hl⟩ := decoLine_of hd hl
    exact hclass hn (.inl (.opt hl (.fst hR (.found hR) (relaxed_growing env n))))
  · -- relaxedDecorators
    obtain ⟨hn, d, r, m, hd, hl, hr, hin, hno⟩ := hc
    obtain ⟨l, hdl⟩ := decoLine_of (env := env) hd hl
    have key : RunsIn More (setFlag .relaxedDecorators) (checkRelaxed env n) := by
      refine .eachOf hR hd (.gate hl (.when ?_ (.found hR))) fun d _ => ?_
      · rw [List.any_eq_true]
        refine ⟨m, walk_mem (decoRoot_iff.mp hr ▸ hin), ?_⟩
        unfold isNameOrAttr
        split
        · rename_i x c hk; exact absurd (.inl ⟨x, c, hk⟩) hno
        · rename_i x hk; exact absurd (.inr ⟨x, hk⟩) hno
        · rfl
      · unfold gate
        exact .ite .skip (.when .found)
    rcases hn with hn | ⟨name, hn⟩
    · exact hdecos hn (.opt hdl (.fst hR (.snd hR .found key) (hcl.checkUserFuncDecos hA hn)))
    · exact hclass hn (.inl (.opt hdl (.snd hR .found key)))
  · -- patternMatching
    have hn : n.kind = .match := hc
    refine visit_of ?_
    unfold visitAlg
    simp only [hn]
    exact .gate (hline (by rw [hn]; trivial)) (.fst hR (.found hR) hgen)
  · -- exceptStar
    obtain ⟨⟨name, hn⟩, ht⟩ := hc
    have hnm : ∀ e, Growing (namesAsMembers env e) := fun e => hcl.namesAsMembers hA fun _ _ _ _ => trivial
    refine visit_of ?_
    unfold visitAlg
    simp only [hn]
    exact .gate (hline (by rw [hn]; trivial)) (.fst hR (.when (isExceptStar_of ht) (.found hR)) (growing_inScope
      (.seq (.seq (.optSkip fun x _ => hcl.userDef trivial) (.optSkip fun e _ => hnm e)) hgen)))
  · -- metaclassClassKeyword
    obtain ⟨⟨name, hn⟩, k, hk, hkk⟩ := hc
    refine hclass hn (.inr (.eachOf hR hk (.when ?_ (.found hR)) fun k _ => .when .found))
    simp [kwArg, hkk]
end

/-- A part that is looked at is visited. -/
theorem reach_runs {env : Env} {m n : Node} (h : Reach env m n) : RunsIn More (visit env m) (visit env n) := by
  induction h with
  | self n => exact .here .more
  | kid hv _ ih =>
    intro s t h
    obtain ⟨a, b, h1, h2, h3⟩ := kid_runs .more hv (fun _ => more_defs) (fun _ => more_loops) (fun _ => more_counts) s t h
    obtain ⟨a', b', h1', h2', h3'⟩ := ih a b h2
    exact ⟨a', b', Rel.more.trans h1 h1', h2', Rel.more.trans h3' h3⟩

theorem mem_set (s : S) (f : Flag) : f ∈ (s.set f).flags := by
  unfold S.set
  split
  · rename_i h; simpa using h
  · exact List.mem_append_right _ (.head _)

/-! ### Definitions -/

theorem bindsList_mem {x k : Node} {p : Node → Bool} : ∀ {ks : List Node}, k ∈ ks → x ∈ (levels p k).flatten → x ∈ (levelsList p ks).flatten
  | k' :: ks, hk, h => by
    unfold levelsList
    rw [mem_mergeLevels]
    rcases List.mem_cons.mp hk with hk | hk
    · rw [← hk]; exact .inl h
    · exact .inr (bindsList_mem hk h)
theorem binds_mem {t : Node} {x : String} (h : Binds t x) : ∃ m ∈ assignTargetWalk t, m.kind = .name x .store := by
  unfold assignTargetWalk
  induction h with
  | @name n x h =>
    refine ⟨n, ?_, h⟩
    cases n with
    | mk i ks =>
      unfold levels
      have : isSubOrAttr (.mk i ks) = false := by unfold isSubOrAttr; rw [h]
      simp [this]
  | @part n k x h1 h2 hk _ ih =>
    obtain ⟨m, hm, hx⟩ := ih
    refine ⟨m, ?_, hx⟩
    cases n with
    | mk i ks =>
      unfold levels
      have : isSubOrAttr (.mk i ks) = false := by
        unfold isSubOrAttr
        split
        · rename_i h; exact absurd h h1
        · rename_i h; exact absurd h (h2 _)
        · rfl
      simp only [this, Bool.false_eq_true, if_false, List.flatten_cons, List.mem_append]
      exact .inr (bindsList_mem hk hm)

/-- Definitions are noted. -/
theorem introduces_runs {env : Env} {n : Node} {x : String} (hi : Introduces n x) (hm : ¬ Marked env n) :
    RunsIn Flat (addUserDef x) (visit env n) := by
  have hR := Rel.flat
  have hgen := gen_growing env n
  have hcl := closed_growing env n
  have hA : ∀ ev, Emits env n ev → True := fun _ _ => trivial
  have hkids := kids_growing env n
  have hline : Markable n.kind → n.line ∉ env.noLines := fun h1 h2 => hm ⟨h1, h2⟩
  have hnode : ∀ {t : Node}, t.kind = .name x .store → RunsIn Flat (addUserDef x) (addUserDefNode t) := fun ht => by
    unfold addUserDefNode
    rw [ht]
    exact .here hR
  rw [visitMk env n]
  unfold visitAlg
  cases hi with
  | function hn =>
    have key : RunsIn Flat (addUserDef x) (handleFunctionDef env n x (visitKids env n.kids)) :=
      .fst hR (.fst hR (.fst hR (.fst hR (.here hR) (hcl.dirFuncs hA hn)) (hcl.funcDecos hA ⟨x, hn⟩))
        (growing_inScope (hcl.generic _ (hkids.dropReturns (d := env.display))))) (hcl.funcAnns hA ⟨x, hn⟩)
    rcases hn with hn | hn <;> simp only [hn]
    · exact .gate (hline (by rw [hn]; trivial)) (.rd fun s => .fstR hR key flat_reset)
    · exact .gate (hline (by rw [hn]; trivial)) (.rd fun s => .fstR hR (.fst hR (.fst hR key .found) (.rd fun s' => .when .found))
        flat_reset)
  | «class» hn =>
    simp only [hn]
    exact .gate (hline (by rw [hn]; trivial)) (.fst hR (.fst hR (.fst hR (.fst hR (.fst hR (.here hR) (hcl.nameResType trivial)) (hcl.classDecos hA hn))
      (hcl.metaclassKw hA hn)) hgen) (hcl.eachGvisit hn (hkids.filter fun k => decide (k.fld = .body))))
  | @«import» a m hn ha hk =>
    simp only [hn]
    refine .gate (hline (by rw [hn]; trivial)) (.eachOf hR ha ?_ fun b _ => .seq (.seq (hcl.module _ _ trivial) (hcl.member _ _ trivial)) (.optSkip fun y _ => .seq (growing_upd fun s => { Grows.refl s with }) (hcl.userDef trivial)))
    have : aliasOf a = (m, some x) := by unfold aliasOf; rw [hk]
    unfold importName
    rw [this]
    exact .snd hR (.seq (hcl.module _ _ trivial) (hcl.member _ _ trivial)) (.opt rfl (.snd hR (growing_upd fun s => { Grows.refl s with }) (.here hR)))
  | @importFrom a m k hn ha hk =>
    simp only [hn]
    refine .opt rfl (.when rfl (.gate (hline (by rw [hn]; trivial)) (.snd hR (hcl.module _ _ trivial) (.eachOf hR ha ?_ fun b _ => .seq (.when (.seq (.seq (.seq (growing_upd fun s => { Grows.refl s with }) (hcl.module _ _ trivial)) (hcl.member _ _ trivial)) (hcl.member _ _ trivial))) (.optSkip fun y _ => .seq (growing_upd fun s => { Grows.refl s with }) (hcl.userDef trivial))))))
    have : aliasOf a = (k, some x) := by unfold aliasOf; rw [hk]
    unfold importFromName
    rw [this]
    exact .snd hR (.when (.seq (.seq (.seq (growing_upd fun s => { Grows.refl s with }) (hcl.module _ _ trivial)) (hcl.member _ _ trivial)) (hcl.member _ _ trivial)))
      (.opt rfl (.snd hR (growing_upd fun s => { Grows.refl s with }) (.here hR)))
  | @assign t hn ht hb =>
    obtain ⟨m, hm, hx⟩ := binds_mem hb
    simp only [hn]
    exact .gate (hline (by rw [hn]; trivial)) (.fst hR (.fst hR (.eachOf hR ht (.eachOf hR hm (hnode hx) fun y _ => hcl.addUserDefNode fun _ _ => trivial)
      fun y _ => hcl.addTargets fun _ _ => trivial) (hcl.addNameResAssign hA (by simp [hn]))) hgen)
  | @single t hn ht hk =>
    rcases hn with hn | hn | hn <;> simp only [hn]
    · exact .gate (hline (by rw [hn]; trivial)) (.fst hR (.fst hR (.fst hR (.opt ht (hnode hk)) (hcl.addNameResAssign hA (by simp [hn])))
        (.when (.optSkip fun t _ => .optSkip fun v _ => .rd fun s => .lift fun vd => .ite (.lift fun a => .lift fun b => .when .found) (.when (.lift fun b => .when .found))))) hgen)
    · exact .gate (hline (by rw [hn]; trivial)) (.fst hR (.fst hR (.fst hR (.fst hR (.fst hR (.opt ht (hnode hk)) (hcl.addNameResAssign hA (by simp [hn]))) (.alt hgen (growing_flag _)))
        (growing_flag _)) .found) (.optSkip fun a _ => .ite .found (.when .found)))
    · exact .gate (hline (by rw [hn]; trivial)) (.fst hR (.fst hR (.opt ht (hnode hk)) .found) hgen)

/-- A part that is looked at in the same scope is visited in it. -/
theorem reachFlat_runs {env : Env} {m n : Node} (h : ReachFlat env m n) : RunsIn Flat (visit env m) (visit env n) := by
  induction h with
  | self n => exact .here .flat
  | kid hv hs _ ih =>
    intro s t h
    obtain ⟨a, b, h1, h2, h3⟩ := kid_runs .flat hv (fun h => absurd h hs) (fun _ s f w => { Grows.refl { s with seenFor := f, seenWhile := w } with yields := Nat.zero_le _, awaits := Nat.zero_le _ })
      (fun _ s y w => { Grows.refl { s with seenYield := y, seenAwait := w } with yields := Nat.zero_le _, awaits := Nat.zero_le _ }) s t h
    obtain ⟨a', b', h1', h2', h3'⟩ := ih a b h2
    exact ⟨a', b', Rel.flat.trans h1 h1', h2', Rel.flat.trans h3' h3⟩

end Vermin
