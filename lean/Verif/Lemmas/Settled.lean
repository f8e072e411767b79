import Verif.Lemmas.Seen
import Verif.Lemmas.Written
import Verif.Spec.Settled
/-
What is certain to be reported of constructs that depend on names or on what is around them.
-/
namespace Vermin
open Py V Spec

/-- Actions that leave what has been reported. -/
def FlagsUp (v : V) : Prop := ∀ s t, v s = .ok t → s.flags ⊆ t.flags
theorem Growing.up {v : V} (h : Growing v) : FlagsUp v := fun s t ht => (h s t ht).flags
theorem up_upd {f : S → S} (h : ∀ s, (f s).flags = s.flags) : FlagsUp (upd f) := fun s t ht => by rw [upd_run ht, h]; exact fun _ h => h

/-- Running `v` reports the feature. -/
def Marks (f : Flag) (v : V) : Prop := ∀ s t, v s = .ok t → f ∈ t.flags

namespace Marks
variable {env : Env} {n : Node} {f : Flag}
theorem set : Marks f (setFlag f) := fun s t h => by rw [upd_run h]; exact mem_set _ _
theorem fst {a b : V} (ha : Marks f a) (hb : FlagsUp b) : Marks f (a ;; b) := fun s t h => by
  obtain ⟨u, h1, h2⟩ := seq_run h
  exact hb u t h2 (ha s u h1)
theorem snd {a b : V} (hb : Marks f b) : Marks f (a ;; b) := fun s t h => by
  obtain ⟨u, h1, h2⟩ := seq_run h
  exact hb u t h2
theorem found {msg vs line pl} : Marks f (found env f msg vs line pl) := .fst .set (Growing.print _ _ _ _ _ _ _).up
theorem gate {v : V} (hn : n.line ∉ env.noLines) (hv : Marks f v) : Marks f (gate env n v) := by
  unfold Vermin.gate
  rw [if_neg (by simpa [Env.isNoLine] using hn)]
  exact hv
theorem when {c : Bool} {v : V} (hc : c = true) (hv : Marks f v) : Marks f (V.when c v) := by subst hc; exact hv
theorem neg {c : Prop} [Decidable c] {a b : V} (hc : ¬ c) (h : Marks f b) : Marks f (if c then a else b) := by rw [if_neg hc]; exact h
theorem alt {c : Bool} {a b : V} (hc : c = false) (hv : Marks f b) : Marks f (V.alt c a b) := by subst hc; exact hv
theorem opt {α : Type} {x : Option α} {y : α} {a : V} {k : α → V} (hx : x = some y) (hk : Marks f (k y)) : Marks f (V.opt x a k) := by subst hx; exact hk
theorem scope {v : V} (hv : Marks f v) : Marks f (inScope v) := fun s t h => by
  obtain ⟨u, h1, h2⟩ := seq_run (show (v ;; restoreDefs s.userDefs) s = .ok t from h)
  rw [upd_run h2]
  exact hv s u h1
end Marks

/-- Running `v` at `n` reports the feature, given what may be known there. -/
def Sure (env : Env) (P : Facts) (p n : Node) (f : Flag) (v : V) : Prop := ∀ s t, Known env P p n s → v s = .ok t → f ∈ t.flags

namespace Sure
variable {env : Env} {P : Facts} {p n : Node} {f : Flag}

theorem of {v : V} (h : Marks f v) : Sure env P p n f v := fun s t _ hv => h s t hv
theorem set : Sure env P p n f (setFlag f) := .of .set
theorem fst {a b : V} (ha : Sure env P p n f a) (hb : FlagsUp b) : Sure env P p n f (a ;; b) := fun s t hl h => by
  obtain ⟨u, h1, h2⟩ := seq_run h
  exact hb u t h2 (ha s u hl h1)
theorem snd {a b : V} (ha : Traced env P p n a) (hb : Sure env P p n f b) : Sure env P p n f (a ;; b) := fun s t hl h => by
  obtain ⟨u, h1, h2⟩ := seq_run h
  exact hb u t (ha s u hl h1).1 h2
theorem found {msg vs line pl} : Sure env P p n f (found env f msg vs line pl) := .of .found
theorem rd {g : S → V} (hg : ∀ s, Known env P p n s → Sure env P p n f (g s)) : Sure env P p n f (V.rd g) := fun s t hl h => hg s hl s t hl h
theorem gate {v : V} (hn : n.line ∉ env.noLines) (hv : Sure env P p n f v) : Sure env P p n f (gate env n v) := by
  unfold Vermin.gate
  rw [if_neg (by simpa [Env.isNoLine] using hn)]
  exact hv
theorem when {c : Bool} {v : V} (hc : c = true) (hv : Sure env P p n f v) : Sure env P p n f (V.when c v) := by subst hc; exact hv
theorem pos {c : Prop} [Decidable c] {a b : V} (hc : c) (h : Sure env P p n f a) : Sure env P p n f (if c then a else b) := by rw [if_pos hc]; exact h
theorem neg {c : Prop} [Decidable c] {a b : V} (hc : ¬ c) (h : Sure env P p n f b) : Sure env P p n f (if c then a else b) := by rw [if_neg hc]; exact h
theorem yes {c : Bool} {a b : V} (hc : c = true) (hv : Sure env P p n f a) : Sure env P p n f (V.alt c a b) := by subst hc; exact hv
theorem no {c : Bool} {a b : V} (hc : c = false) (hv : Sure env P p n f b) : Sure env P p n f (V.alt c a b) := by subst hc; exact hv
theorem opt {α : Type} {x : Option α} {y : α} {a : V} {k : α → V} (hx : x = some y) (hk : Sure env P p n f (k y)) : Sure env P p n f (V.opt x a k) := by
  subst hx; exact hk
theorem lift {α : Type} {x : Except Err α} {k : α → V} (hk : ∀ v, x = .ok v → Sure env P p n f (k v)) : Sure env P p n f (V.lift x k) := by
  cases x with
  | error e => intro s t _ h; cases h
  | ok v => exact hk v rfl
theorem scope {v : V} (hv : Sure env P p n f v) : Sure env P p n f (inScope v) := fun s t hl h => by
  obtain ⟨u, h1, h2⟩ := seq_run (show (v ;; restoreDefs s.userDefs) s = .ok t from h)
  rw [upd_run h2]
  exact hv s u hl h1
theorem each {α : Type} {g : α → V} {l : List α} {x : α} (hx : x ∈ l) (h : Sure env P p n f (g x)) (hk : ∀ y s t, Known env P p n s → g y s = .ok t → Known env P p n t)
    (hu : ∀ y, FlagsUp (g y)) : Sure env P p n f (V.each g l) := by
  induction l with
  | nil => cases hx
  | cons y l ih =>
    rcases List.mem_cons.mp hx with rfl | hx
    · refine .fst h fun s t ht w hf => ?_
      clear ih hx
      induction l generalizing s with
      | nil => cases ht; exact hf
      | cons z l ih =>
        obtain ⟨u, h1, h2⟩ := seq_run ht
        exact ih u h2 (hu z s u h1 hf)
    · intro s t hs ht
      obtain ⟨u, h1, h2⟩ := seq_run ht
      exact ih hx u t (hk y s u hs h1) h2
end Sure

section
variable {env : Env} {P : Facts} {p n : Node}

theorem hasName {n : Node} {x : String} (h : IsName n x) : n.nameId = some x := by
  obtain ⟨c, hc⟩ := h; exact nameId_of hc

theorem visit_sure {f : Flag} (h : Sure env P p n f (visitAlg env n (visitKids env n.kids))) : Sure env P p n f (visit env n) := by
  rw [visitMk]; exact h

/-- `long` -/
theorem long_sure (hn : IsName n "long") (hx : env.cfg.isExcluded "long" = false) (hu : Undefined p "long") : Sure env P p n .longv2 (visit env n) := by
  obtain ⟨c, hc⟩ := hn
  refine visit_sure ?_
  unfold visitAlg
  simp only [hc]
  unfold visitName
  refine .pos rfl (.rd fun s hs => ?_)
  rw [hx, not_userDef hs hu]
  exact .neg nofun (.neg nofun .found)

/-- Calls of a name -/
theorem callSpecial_sure (hP : Keeps env p P) {f : Flag} {x : String} (hc : CallsName n x) (hm : n.line ∉ env.noLines)
    (h : Sure env P p n f (callSpecial env n x)) : Sure env P p n f (visit env n) := by
  obtain ⟨hk, hf⟩ := hc
  obtain ⟨e, he, hx⟩ := Option.bind_eq_some_iff.mp hf
  obtain ⟨c, hc⟩ := Acting.nameId_iff hx
  have hg := closed_growing env n
  have ht := closed_traced env P p n hP
  have hA : ∀ ev, EmitsIn env (Known env P p n) n ev → At env p n ev := fun _ h => emitsIn_mono (fun _ h => h.toLearnt) h
  refine visit_sure ?_
  unfold visitAlg
  simp only [hk]
  rw [Acting.visitCall_name env _ he hc]
  refine .gate hm (.fst (fun s t hl h' => ?_) growing_pop.up)
  obtain ⟨u, h1, h2⟩ := seq_run h'
  have h1 := upd_run h1
  subst h1
  refine Sure.fst (.fst (.snd (.seq ?_ (ht.callCodecs hA ⟨hk, hf⟩)) h) ?_) ?_ _ t (learnt_push hl ⟨s, hl.toLearnt, hk, e, he, .inl ⟨c, hc⟩⟩) h2
  · exact ht.member _ _ (.inr (.inr (.inl ⟨hk, hf⟩)))
  · exact (hg.checkUnpacking (I := fun _ => True) fun _ _ => trivial).up
  · exact (gen_growing env n).up

theorem not_array {x : String} (h : ∀ k, In k p → ¬ ImportsAs k "array.array" x) {s : S} (hs : Known env P p n s) : Dict.get? s.moduleAs x ≠ some "array.array" := by
  intro hg
  obtain ⟨k, hk, hr⟩ := hs.renames _ _ hg
  exact h k hk hr

theorem isIntNode_of {n : Node} (h : IsIntLit n) : isIntNode n = true := by
  unfold isIntNode intConst
  rcases h with ⟨i, hi⟩ | ⟨hk, m, i, hm, hi⟩
  · simp [hi]
  · simp [hk, hm, hi]
theorem isNegIntNode_of {n : Node} (h : IsNegIntLit n) : isNegIntNode n = true := by
  unfold isNegIntNode intConst
  rcases h with ⟨i, hlt, hi⟩ | ⟨hk, ⟨o, ho, hok⟩, m, i, hm, hi⟩
  · simp [hi, hlt]
  · simp [hk, hm, hi, ho, Node.opOf, hok]

/-- `pow(a, -b, c)` -/
theorem pow_sure (hP : Keeps env p P) (hc : Construct env .modInversePow n) (hm : n.line ∉ env.noLines)
    (ha : ∀ k, In k p → ¬ ImportsAs k "array.array" "pow") : Sure env P p n .modInversePow (visit env n) := by
  obtain ⟨h1, a, b, c, hargs, h2, h3, h4⟩ := hc
  refine callSpecial_sure hP h1 hm (.rd fun s hs => .neg (by decide) (.neg ?_ (.pos ⟨rfl, by rw [hargs]; rfl⟩ (.when ?_ .found))))
  · rintro (h | h)
    · exact absurd h (by decide)
    · exact not_array ha hs h
  · unfold isInversePow
    rw [hargs]
    simp [isIntNode_of h2, isNegIntNode_of h3, isIntNode_of h4]

/-- `super()` -/
theorem super_sure (hP : Keeps env p P) (hc : Construct env .superNoArgs n) (hm : n.line ∉ env.noLines)
    (ha : ∀ k, In k p → ¬ ImportsAs k "array.array" "super") : Sure env P p n .superNoArgs (visit env n) := by
  obtain ⟨h1, hargs⟩ := hc
  refine callSpecial_sure hP h1 hm (.rd fun s hs => .neg (by decide) (.neg ?_ (.neg (fun h => absurd h.1 (by decide)) (.when ?_ .found))))
  · rintro (h | h)
    · exact absurd h (by decide)
    · exact not_array ha hs h
  · rw [hargs]; rfl

/-! ### Annotations -/

theorem not_final {a : Node} (h : AnnIs a "Literal") : isAnn a "Final" = false := by
  unfold isAnn Node.nameId
  rcases h with ⟨c, hc⟩ | ⟨hk, v, c, hv, hc⟩
  · simp [hc]
  · simp [hk, hv, hc]

theorem up_annKind (a : Node) : FlagsUp (annKind env n a) := by
  refine Growing.up ?_
  unfold annKind
  refine .ite ?_ (.when ?_) <;> exact .seq (growing_flag _) (.print _ _ _ _ _ _ _)

/-- Annotated assignments -/
theorem annAssign_sure (hn : n.kind = .annAssign) (hm : n.line ∉ env.noLines) :
    (env.cfg.evalAnnotations = false → Sure env P p n .maybeAnnotations (visit env n)) ∧
    ∀ a, n.field .annotation = some a → AnnIs a "Literal" → Sure env P p n .literalAnnotations (visit env n) := by
  have hann : FlagsUp (V.opt (n.field .annotation) V.skip (annKind env n)) := by
    cases n.field .annotation with
    | none => exact Growing.skip.up
    | some a => exact up_annKind a
  have hv : visit env n = visitAnnAssign env n (visitKids env n.kids) := by
    rw [visitMk env n]
    unfold visitAlg
    simp only [hn]
  rw [hv]
  constructor
  · intro he
    exact .of (.gate hm (.fst (.fst (.fst (.snd (.alt he .set)) (growing_flag _).up) (Growing.seq (growing_flag _) (.print _ _ _ _ _ _ _)).up) hann))
  · intro a ha hl
    exact .of (.gate hm (.snd (.opt ha (.neg (by rw [not_final hl]; nofun) (.when (isAnn_of hl) .found)))))

theorem kind_visit : visit env n = visitAlg env n (visitKids env n.kids) := visitMk env n

/-- `Literal` as an annotation of a parameter -/
theorem isLiteral_of {a : Node} (h : IsLiteral p a) {s : S} (hs : Known env P p n s) : isLiteralAnn s a = .ok true := by
  unfold isLiteralAnn
  rcases h with h | ⟨h, hu⟩
  · rw [isAnn_of h]; rfl
  · split
    · rfl
    · rw [chain_dotted h, unrenamed hu hs.renames]
      rfl

theorem up_hasAnn : Growing (hasAnn env n) := .seq (growing_flag _) (.print _ _ _ _ _ _ _)

theorem hasLit_sets : Marks (if env.cfg.evalAnnotations then .literalAnnotations else .maybeAnnotations) (hasLitAnn env n) := by
  unfold hasLitAnn
  cases env.cfg.evalAnnotations
  · exact .set
  · exact .found

theorem argAnns_sure (hn : IsFunction n) {as : Node} (has : n.field .args = some as) (hP : Keeps env p P) {a : Node} (hl : IsLiteral p a) :
    ∀ {l : List Node}, (∀ q ∈ l, q ∈ as.fields .args) → (∃ q ∈ l, q.field .annotation = some a) →
    Sure env P p n (if env.cfg.evalAnnotations then .literalAnnotations else .maybeAnnotations) (argAnns env n l)
  | [], _, h => by obtain ⟨q, hq, _⟩ := h; cases hq
  | q :: l, hm, h => by
    have ht := closed_traced env P p n hP
    unfold argAnns
    have hrest : (∃ q ∈ l, q.field .annotation = some a) → _ := argAnns_sure hn has hP hl fun q hq => hm q (.tail _ hq)
    cases hq : q.field .annotation with
    | none =>
      obtain ⟨r, hr, hra⟩ := h
      rcases List.mem_cons.mp hr with rfl | hr
      · rw [hq] at hra; cases hra
      · exact hrest ⟨r, hr, hra⟩
    | some b =>
      refine .snd (Traced.seq (.flag _) (.print _ _ _ _ _ _)) (.rd fun s hs => ?_)
      by_cases hba : isLiteralAnn s b = .ok true
      · rw [hba]; exact .of hasLit_sets
      · refine .lift fun v hv => ?_
        cases v with
        | true => exact absurd hv hba
        | false =>
          obtain ⟨r, hr, hra⟩ := h
          rcases List.mem_cons.mp hr with rfl | hr
          · rw [hq] at hra
            injection hra with hra
            subst hra
            exact absurd (isLiteral_of hl hs) hba
          · exact hrest ⟨r, hr, hra⟩

theorem handle_sure (hP : Keeps env p P) {name : String} (hn : DefinesFunction n name) {f : Flag} (h : Sure env P p n f (funcAnns env n)) :
    Sure env P p n f (handleFunctionDef env n name (visitKids env n.kids)) := by
  have ht := closed_traced env P p n hP
  have hA : ∀ ev, EmitsIn env (Known env P p n) n ev → At env p n ev := fun _ h => emitsIn_mono (fun _ h => h.toLearnt) h
  have hf : IsFunction n := hn.elim (fun h => ⟨_, .inl h⟩) fun h => ⟨_, .inr h⟩
  exact .snd (.seq (.seq (.seq (ht.userDef (hA _ (.inl hn))) (ht.dirFuncs hA hn)) (ht.funcDecos hA hf))
    (.inScope (ht.generic _ (Kids.dropReturns (d := env.display) (kids_traced env P p n hP))))) h

theorem literalParam_sure (hP : Keeps env p P) (h : LiteralParam p n) (hm : n.line ∉ env.noLines) :
    Sure env P p n (if env.cfg.evalAnnotations then .literalAnnotations else .maybeAnnotations) (visit env n) := by
  obtain ⟨hf, hret, a, ⟨as, q, has, hq, hqa⟩, hl⟩ := h
  have hann : Sure env P p n (if env.cfg.evalAnnotations then .literalAnnotations else .maybeAnnotations) (funcAnns env n) := by
    unfold funcAnns paramsOf
    rw [hret, has]
    exact argAnns_sure hf has hP hl (fun _ h => h) ⟨q, hq, hqa⟩
  obtain ⟨name, hk | hk⟩ := hf
  · refine visit_sure ?_
    unfold visitAlg
    simp only [hk]
    exact .gate hm (.rd fun s _ => .fst (handle_sure hP (.inl hk) hann) (up_upd fun _ => rfl))
  · refine visit_sure ?_
    unfold visitAlg
    simp only [hk]
    refine .gate hm (.rd fun s _ => .fst (.fst (.fst (handle_sure hP (.inr hk) hann) (Growing.seq (growing_flag _) (.print _ _ _ _ _ _ _)).up) ?_) (up_upd fun _ => rfl))
    exact (Growing.rd fun s' => .when (.seq (growing_flag _) (.print _ _ _ _ _ _ _))).up

/-! ### Subscripts -/

/-- What may be known at `n` includes what the variables and the imported names of the statements before are. -/
structure FactsAt (env : Env) (p : Node) (l : List Node) (ms os vs : Table) (ts : Types) : Prop where
  values : ∀ x y, ValVar env p l x y → Dict.get? vs x = some y
  origins : ∀ x m, FromVar env p l x m → Dict.get? os x = some m
  renames : ∀ y m, RenVar env p l y m → Dict.get? ms y = some m
  types : ∀ x y, GivenType env l x y → ∃ ys, Dict.get? ts x = some ys ∧ y ∈ ys

theorem keeps_type {x y : String} : Keeps env p (fun _ _ _ ts => ∃ ys, Dict.get? ts x = some ys ∧ y ∈ ys) := by
  refine ⟨fun _ _ _ _ _ _ _ _ _ h => h, fun _ _ _ _ _ _ _ _ _ h => h, fun _ _ _ _ _ _ _ _ _ h => h, fun k x' y' _ _ _ ts _ _ ⟨ys, h1, h2⟩ => ?_⟩
  rw [Dict.get?_set]
  split
  · rename_i hx
    subst hx
    refine ⟨_, rfl, ?_⟩
    rw [h1, Option.getD_some]
    unfold addSet
    split
    · exact h2
    · simp [h2]
  · exact ⟨ys, h1, h2⟩

theorem keeps_facts (env : Env) (p : Node) (l : List Node) : Keeps env p (FactsAt env p l) where
  rename k x y ms _ _ _ hk he h := by
    refine { h with renames := fun z m hz => ?_ }
    rw [Dict.get?_set]
    split
    · rename_i hxz
      rw [hz.1 k y hk (hxz ▸ he)]
    · exact h.renames z m hz
  origin k x y _ os _ _ hk he h := by
    refine { h with origins := fun z m hz => ?_ }
    rw [Dict.get?_set]
    split
    · rename_i hxz
      subst hxz
      obtain ⟨hi, hs, hu, _⟩ := hz
      obtain ⟨h1, h2, a, ha, h3⟩ := he
      rcases h3 with ⟨z, h3⟩ | h3
      · rw [hu k y hk ⟨h1, a, ha, z, h3⟩]
      · exact absurd h3.1 hi.1
    · exact h.origins z m hz
  value k x y ms os vs ts hk he h := { h with values := fun z w hz => (keeps_value (env := env) hz.1).value k x y ms os vs ts hk he (h.values z w hz) }
  type k x y ms os vs ts hk he h := { h with types := fun z w hz => (keeps_type (env := env) (p := p)).type k x y ms os vs ts hk he (h.types z w hz) }

/-- Names imported from modules -/
theorem no_origin {x : String} (h : NotFrom p x) (hx : x ≠ "") {s : S} (hl : Known env P p n s) : Dict.get? s.importMemMod x = none := by
  cases hg : Dict.get? s.importMemMod x with
  | none => rfl
  | some z =>
    obtain ⟨k, hk, h1, _, b, hb, ⟨as, h2⟩ | h2⟩ := hl.origins x z hg
    · exact absurd ⟨h1, b, hb, as, h2⟩ (h k z hk)
    · exact absurd h2.1 hx

theorem dotted_two (a b : String) : dotted [some a, some b] = a ++ "." ++ b := dotted_text a [b]

theorem genericType_sure {x : String} (hu : Undefined p x) :
    Sure env P p n (if env.cfg.evalAnnotations then .builtinGenericTypeAnnotations else .maybeAnnotations) (genericType env x) := by
  unfold genericType
  cases env.cfg.evalAnnotations
  · exact .set
  · refine .yes rfl (.rd fun s hs => ?_)
    exact .neg (by rw [not_userDef hs hu]; nofun) .found

theorem genericType_known (x : String) {s t : S} (hs : Known env P p n s) (h : genericType env x s = .ok t) : Known env P p n t := by
  unfold genericType at h
  cases he : env.cfg.evalAnnotations with
  | false =>
    rw [he] at h
    replace h : setFlag .maybeAnnotations s = .ok t := h
    rw [upd_run h]
    exact { hs with }
  | true =>
    rw [he] at h
    replace h : (if s.userDefs.contains x then vvvv env ("Ignoring type '" ++ x ++ "' because it's user-defined!")
      else found env .builtinGenericTypeAnnotations ("builtin generic type annotation (" ++ x ++ "[..])") (from3 9)) s = .ok t := h
    split at h
    · obtain ⟨o, rfl⟩ := verbosePrint_run h
      exact { hs with }
    · obtain ⟨u, h1, h2⟩ := seq_run h
      obtain ⟨o, rfl⟩ := verbosePrint_run h2
      rw [upd_run h1]
      exact { hs with }
theorem genericType_up (x : String) : FlagsUp (genericType env x) := by
  intro s t h w hf
  unfold genericType at h
  cases he : env.cfg.evalAnnotations with
  | false =>
    rw [he] at h
    exact (growing_flag _).up s t h hf
  | true =>
    rw [he] at h
    replace h : (if s.userDefs.contains x then vvvv env ("Ignoring type '" ++ x ++ "' because it's user-defined!")
      else found env .builtinGenericTypeAnnotations ("builtin generic type annotation (" ++ x ++ "[..])") (from3 9)) s = .ok t := h
    split at h
    · obtain ⟨o, rfl⟩ := verbosePrint_run h
      exact hf
    · exact (Growing.seq (growing_flag _) (.print _ _ _ _ _ _ _)).up s t h hf

theorem generic_sure {l : List Node} (h : GenericSubscript env p l n) (hm : n.line ∉ env.noLines) :
    Sure env (FactsAt env p l) p n (if env.cfg.evalAnnotations then .builtinGenericTypeAnnotations else .maybeAnnotations) (visit env n) := by
  obtain ⟨hk, v, x, hv, ⟨c, hc⟩, h⟩ := h
  have hg := closed_growing env n
  refine visit_sure ?_
  unfold visitAlg
  simp only [hk]
  refine .gate hm (.fst (.fst (.opt hv (.rd fun s hs => ?_)) ?_) (gen_growing env n).up)
  · unfold nameOrAttr
    simp only [hc]
    show Sure _ _ _ _ _ (subscriptName env x)
    refine .rd fun s' hs' => ?_
    rcases h with ⟨h1, h2⟩ | ⟨h1, m, h2, h3, h4⟩ | ⟨h1, h2, h3, h4, t, h5, h6, h7⟩
    · exact .pos (by simpa using h1) (genericType_sure h2)
    · refine .neg (by simpa using h1) (.opt (hs'.known.origins x m h2) (.when ?_ ?_))
      · simpa [dotted_two] using h3
      · rw [dotted_two]; exact genericType_sure h4
    · obtain ⟨ys, h8, h9⟩ := hs'.known.types x t h5
      rw [no_origin h2 h3 hs', h8]
      refine .neg (by simpa using h1) (.each (h4 ys t h9) (.when (by simpa using h6) (genericType_sure h7)) (fun y s u hs hu => ?_) fun y s u hu => ?_)
      · unfold V.when at hu
        split at hu
        · exact genericType_known y hs hu
        · cases hu; exact hs
      · unfold V.when at hu
        split at hu
        · exact genericType_up y s u hu
        · cases hu; exact fun _ h => h
  · exact (Growing.optSkip fun sl hsl => hg.markSlice (fun _ _ => trivial) hk hsl).up

/-! ### Dictionaries and types -/

theorem isDict_dict {vs : Dict String String} {e : Node} {ks : List Bool} (h : e.kind = .dict ks) : isDict vs e = .ok true := by
  rw [isDict_kind]; unfold isDictStep; rw [h]
theorem isDict_call {vs : Dict String String} {e : Node} (h : CallsName e "dict") : isDict vs e = .ok true := by
  rw [isDict_kind]; unfold isDictStep; rw [h.1]; exact if_pos h.2
theorem isDict_name {vs : Dict String String} {e : Node} {x : String} (h : IsName e x) : isDict vs e = .ok (decide (Dict.get? vs x = some "dict")) := by
  obtain ⟨c, hc⟩ := h
  rw [isDict_kind]; unfold isDictStep; rw [hc]

theorem get_unassigned {x : String} (h : Unassigned p x) {s : S} (hs : Known env P p n s) : Dict.get? s.nameRes x = none := by
  cases hg : Dict.get? s.nameRes x with
  | none => rfl
  | some y =>
    obtain ⟨k, hk, ⟨v, _, ha, _⟩ | ⟨hf, _, ⟨t, c, ht, hc⟩, _⟩⟩ := (hs.values x y hg).emits
    · exact absurd ha (h.1 k v hk)
    · exact absurd hc (h.2 k t c hk hf ht)
theorem get_unrenamed {x : String} (h : Unrenamed p x) {s : S} (hs : Known env P p n s) : Dict.get? s.moduleAs x = none := by
  cases hg : Dict.get? s.moduleAs x with
  | none => rfl
  | some y =>
    obtain ⟨k, hk, hr⟩ := hs.renames x y hg
    exact absurd hr (h k y hk)

theorem find_map {α β : Type} {f : α → β} {q : β → Bool} {r : α → Bool} (h : ∀ x, q (f x) = r x) : ∀ {l : List α} {x : α}, l.find? r = some x → (l.map f).find? q = some (f x)
  | a :: l, x, hx => by
    rw [List.find?_cons] at hx
    rw [List.map_cons, List.find?_cons, h a]
    split at hx
    · cases hx; rfl
    · exact find_map h hx
theorem kidDicts_of {vs : Dict String String} {e v : Node} {f : Fld} (h : e.field f = some v) :
    kidDicts (dictInfos vs e.kids) f = v.kids.map fun c => (c.fld, isDict vs c) := by
  unfold kidDicts
  rw [dictInfos_map, find_map (r := fun k : Node => decide (k.fld = f)) (fun _ => rfl) (show e.kids.find? _ = _ from h)]
  exact dictInfo_kids vs v

theorem plainDict_of {l : List Node} {e : Node} (h : PlainDict env p l e) {s : S} (hs : Known env (FactsAt env p l) p n s) : isDict s.nameRes e = .ok true := by
  induction h with
  | display h => exact isDict_dict h
  | call h => exact isDict_call h
  | var h1 h2 => rw [isDict_name h1, hs.known.values _ _ h2]; rfl
  | @lambda e f b hk hf hfk hb _ ih =>
    rw [isDict_kind]; unfold isDictStep; rw [hk]
    dsimp only
    rw [if_neg (by rw [hf]; simp [Node.nameId, hfk])]
    unfold lambdaKids
    rw [hf]
    simp only [Option.any_some, hfk, decide_true, if_true]
    rw [kidDicts_of hf, find_map (r := fun k : Node => decide (k.fld = .lamBody)) (fun _ => rfl) (show f.kids.find? _ = _ from hb)]
    exact ih
  | @item e v k j hk hv hi hj _ ih =>
    rw [isDict_kind]; unfold isDictStep; rw [hk]
    dsimp only
    rw [subscriptIndex_iff.mpr hi, kidDicts_of hv]
    dsimp only
    rw [List.filter_map, List.map_map]
    have hq : ((fun k : Fld × Except Err Bool => decide (k.1 = .elts) || decide (k.1 = .values)) ∘ fun c : Node => (c.fld, isDict s.nameRes c)) =
        fun k => decide (k.fld = .elts ∨ k.fld = .values) := by
      funext c; simp
    rw [hq]
    have hlt := (List.getElem?_eq_some_iff.mp hj).1
    unfold isDictAt pyIndex
    rw [if_pos (by rw [List.length_map]; exact Int.ofNat_lt.mpr hlt), if_pos (Int.natCast_nonneg j), Int.toNat_natCast, List.getElem?_map, hj]
    exact ih

theorem oneOf_of {l : List Node} {e : Node} {ws : List String} (h : OneOf env p l e ws) {s : S} (hs : Known env (FactsAt env p l) p n s) :
    resolvesTo s ws e = .ok true := by
  obtain ⟨y, z, w, h1, h2, h3, h4⟩ := h
  have hy : plainName s.moduleAs e = .ok (some y) := by
    unfold plainName
    rcases h1 with ⟨c, h1⟩ | ⟨h1, h1'⟩ | ⟨a, bs, h1, h5, rfl⟩
    · rw [h1]
    · rw [h1, h1']
    · obtain ⟨b, hb⟩ := chain_attr h1
      simp only [hb, chain_dotted h1, unrenamed h5 hs.renames]
  have hz : (Dict.get? s.nameRes y).getD y = z := by
    rcases h2 with h2 | ⟨h2, rfl⟩
    · rw [hs.known.values _ _ h2, Option.getD_some]
    · rw [get_unassigned h2 hs, Option.getD_none]
  have hw : resolveName s y = w := by
    unfold resolveName
    dsimp only
    rw [hz]
    cases h3 with
    | own h3 h5 h6 => rw [get_unrenamed h5 hs, no_origin h6 h3 hs]
    | origin h5 h6 => rw [get_unrenamed h5 hs, hs.known.origins _ _ h6]; exact dotted_two ..
    | renamed h5 => rw [hs.known.renames _ _ h5]
  unfold resolvesTo resolveFullName
  rw [hy]
  dsimp only
  rw [hw, List.contains_iff_mem.mpr h4]

theorem dictExpr_of {l : List Node} {e : Node} (h : DictExpr env p l e) {s : S} (hs : Known env (FactsAt env p l) p n s) {a b : Bool}
    (ha : isDict s.nameRes e = .ok a) (hb : resolvesTo s env.tables.dictUnion e = .ok b) : (a || b) = true := by
  rcases h with h | h
  · rw [plainDict_of h hs] at ha; cases ha; rfl
  · rw [oneOf_of h hs] at hb; cases hb; exact Bool.or_true _

theorem isDictUnion_of {l : List Node} {a b : Node} (ha : DictExpr env p l a) (hb : DictExpr env p l b) {s : S} (hs : Known env (FactsAt env p l) p n s) {v : Bool}
    (hv : isDictUnion env s a b = .ok v) : v = true := by
  unfold isDictUnion at hv
  cases h1 : isDict s.nameRes a with
  | error e => rw [h1] at hv; cases hv
  | ok c1 =>
    cases h2 : isDict s.nameRes b with
    | error e => rw [h1, h2] at hv; cases hv
    | ok c2 =>
      cases h3 : resolvesTo s env.tables.dictUnion a with
      | error e => rw [h1, h2, h3] at hv; cases hv
      | ok c3 =>
        cases h4 : resolvesTo s env.tables.dictUnion b with
        | error e => rw [h1, h2, h3, h4] at hv; cases hv
        | ok c4 =>
          rw [h1, h2, h3, h4] at hv
          replace hv : Except.ok ((c1 || c3) && (c2 || c4)) = Except.ok v := hv
          rw [dictExpr_of ha hs h1 h3, dictExpr_of hb hs h2 h4] at hv
          cases hv
          rfl

theorem freeRef_of {l : List Node} {e : Node} (h : FreeRef env p l e) {s : S} (hs : Known env (FactsAt env p l) p n s) :
    ∃ z, nameOrAttr s e = .ok (some z) ∧ Dict.get? s.nameRes z = none ∧ s.userDefs.contains z = false ∧ isDict s.nameRes e = .ok false := by
  cases h with
  | @name x hx h2 h3 =>
    have h4 := get_unassigned h3 hs
    refine ⟨x, ?_, h4, not_userDef hs h2, by rw [isDict_name hx, h4]; rfl⟩
    obtain ⟨c, hc⟩ := hx
    unfold nameOrAttr; rw [hc]
  | attr hc ha h2 h3 =>
    obtain ⟨b, hb⟩ := chain_attr hc
    refine ⟨_, ?_, get_unassigned h3 hs, not_userDef hs h2, by rw [isDict_kind]; unfold isDictStep; rw [hb]⟩
    unfold nameOrAttr
    simp only [hb, chain_dotted hc, unrenamed ha hs.renames]
  | renamed hc ha h2 h3 =>
    obtain ⟨b, hb⟩ := chain_attr hc
    refine ⟨_, ?_, get_unassigned h3 hs, not_userDef hs h2, by rw [isDict_kind]; unfold isDictStep; rw [hb]⟩
    unfold nameOrAttr
    simp only [hb, chain_dotted hc, resolveModuleName, hs.known.renames _ _ ha, Option.getD_some]

theorem freeType_of {l : List Node} {e : Node} (h : FreeType env p l e) {s : S} (hs : Known env (FactsAt env p l) p n s) : isNoneOrName s e = .ok true := by
  unfold isNoneOrName
  by_cases hn : isNoneNode e = true
  · rw [if_pos hn]
  · rw [if_neg hn]
    rcases h with h | h | h | ⟨x, y, ⟨c, hc⟩, h2⟩
    · exact absurd (isNoneNode_of (.inl h)) hn
    · exact absurd (isNoneNode_of (.inr h)) hn
    · obtain ⟨z, h1, h2, h3, _⟩ := freeRef_of h hs
      rw [h1]
      unfold maybeType Dict.has
      simp only [h2, h3]
      rfl
    · obtain ⟨ys, h3, _⟩ := hs.known.types x y h2
      unfold nameOrAttr
      simp only [hc]
      unfold maybeType Dict.has
      simp only [h3, Option.isSome_some, Bool.or_true]

theorem up_binBitOr (l r : Node) : (Growing (V.rd fun s => V.lift (isDictUnion env s l r) fun b =>
      V.when b (found env .dictUnion "dict union (dict | dict)" (from3 9) (.at n.line)))) ∧
    Growing (V.when (env.cfg.hasFeature "union-types") (V.rd fun s => V.lift (bothOk (isNoneOrName s l) (isNoneOrName s r)) fun b =>
      V.when b (found env .unionTypes "union types as `X | Y`" (from3 10) (.at n.line) (some true)))) :=
  ⟨.rd fun s => .lift fun b => .when (.seq (growing_flag _) (.print _ _ _ _ _ _ _)),
   .when (.rd fun s => .lift fun b => .when (.seq (growing_flag _) (.print _ _ _ _ _ _ _)))⟩

theorem binOp_sure (hP : Keeps env p P) {f : Flag} {a b : Node} (hk : n.kind = .binOp) (ho : HasOp n .bitOr) (ha : n.field .left = some a)
    (hb : n.field .right = some b) (h : Sure env P p n f (binBitOr env n a b)) : Sure env P p n f (visit env n) := by
  have ho' := operator_of ho
  refine visit_sure ?_
  unfold visitAlg
  simp only [hk]
  unfold visitBinOp
  rw [ho']
  refine .fst (.snd .skip (.when rfl (.opt ha (.opt hb h)))) (gen_growing env n).up

theorem dictUnion_sure {l : List Node} {a b : Node} (hk : n.kind = .binOp) (ho : HasOp n .bitOr) (ha : n.field .left = some a) (hb : n.field .right = some b)
    (h1 : DictExpr env p l a) (h2 : DictExpr env p l b) : Sure env (FactsAt env p l) p n .dictUnion (visit env n) :=
  binOp_sure (keeps_facts env p l) hk ho ha hb (.fst (.rd fun s hs => .lift fun v hv => .when (isDictUnion_of h1 h2 hs hv) .found) (up_binBitOr a b).2.up)

theorem union_sure {l : List Node} {a b : Node} (hf : env.cfg.hasFeature "union-types" = true) (hk : n.kind = .binOp) (ho : HasOp n .bitOr)
    (ha : n.field .left = some a) (hb : n.field .right = some b) (h1 : FreeType env p l a) (h2 : FreeType env p l b) :
    Sure env (FactsAt env p l) p n .unionTypes (visit env n) := by
  refine binOp_sure (keeps_facts env p l) hk ho ha hb (.snd ?_ (.when hf (.rd fun s hs => .lift fun v hv => .when ?_ .found)))
  · intro s t hl h
    refine (Traced.rd (env := env) (P := FactsAt env p l) (p := p) (n := n) fun s hs => ?_) s t hl h
    cases hu : isDictUnion env s a b with
    | error e => intro s t _ h; cases h
    | ok v =>
      cases v with
      | false => exact .skip
      | true =>
        obtain ⟨hx, hy⟩ := isDictUnion_operands hu
        have hlike : DictLike a ∧ DictLike b := by
          rcases isDictUnion_spec env s a b with ⟨v, hv, hx⟩ | ⟨e, he, _⟩
          · rw [hu] at hv; exact hx (Except.ok.inj hv).symm
          · rw [hu] at he; cases he
        exact .seq (.flag .dictUnion fun _ => ⟨⟨hk, ho, a, b, ha, hb, hlike⟩, s, a, b, hs.toLearnt, ha, hb, hx, hy⟩) (.print _ _ _ _ _ _)
  · rw [freeType_of h1 hs, freeType_of h2 hs] at hv
    cases hv; rfl

/-! ### `|=` -/

theorem each_keeps {α : Type} {f : α → V} {Q : S → Prop} {l : List α} (h : ∀ x ∈ l, ∀ s t, Q s → f x s = .ok t → Q t) {s t : S} (hs : Q s)
    (ht : V.each f l s = .ok t) : Q t := by
  induction l generalizing s with
  | nil => cases ht; exact hs
  | cons x l ih =>
    obtain ⟨u, h1, h2⟩ := seq_run ht
    exact ih (fun y hy => h y (.tail _ hy)) (h x (.head _) s u hs h1) h2
theorem each_does {α : Type} {f : α → V} {Q : S → Prop} {l : List α} {x : α} (hx : x ∈ l) (h0 : ∀ s t, f x s = .ok t → Q t)
    (h : ∀ x ∈ l, ∀ s t, Q s → f x s = .ok t → Q t) {s t : S} (ht : V.each f l s = .ok t) : Q t := by
  induction l generalizing s with
  | nil => cases hx
  | cons y l ih =>
    obtain ⟨u, h1, h2⟩ := seq_run ht
    rcases List.mem_cons.mp hx with rfl | hx
    · exact each_keeps (fun y hy => h y (.tail _ hy)) (h0 s u h1) h2
    · exact ih hx (fun y hy => h y (.tail _ hy)) h2

theorem bindTarget_value {y : String} {t : Node} {x : String} (ht : IsName t x) {s u : S} (h : bindTarget (.value y) t s = .ok u) : Dict.get? u.nameRes x = some y := by
  unfold bindTarget at h
  rw [hasName ht] at h
  replace h : addNameRes x y s = .ok u := h
  rw [upd_run h]
  show Dict.get? (Dict.set s.nameRes x y) x = some y
  rw [Dict.get?_set, if_pos rfl]
theorem bindTarget_keeps {y : String} (t : Node) {x : String} {s u : S} (hs : Dict.get? s.nameRes x = some y) (h : bindTarget (.value y) t s = .ok u) :
    Dict.get? u.nameRes x = some y := by
  unfold bindTarget at h
  cases ht : t.nameId with
  | none => rw [ht] at h; cases h; exact hs
  | some z =>
    rw [ht] at h
    replace h : addNameRes z y s = .ok u := h
    rw [upd_run h]
    show Dict.get? (Dict.set s.nameRes z y) x = some y
    rw [Dict.get?_set]
    split
    · rfl
    · exact hs
theorem bindTarget_type {y : String} {t : Node} {x : String} (ht : IsName t x) {s u : S} (h : bindTarget (.type y) t s = .ok u) :
    ∃ ts, Dict.get? u.nameResType x = some ts ∧ y ∈ ts := by
  unfold bindTarget at h
  rw [hasName ht] at h
  replace h : addNameResType x y s = .ok u := h
  rw [upd_run h]
  refine ⟨_, Dict.get?_set_self .., ?_⟩
  unfold addSet
  split
  · rename_i hc; exact List.contains_iff_mem.mp hc
  · simp
theorem bindTarget_type_keeps {y z : String} (t : Node) {x : String} {s u : S} (hs : ∃ ts, Dict.get? s.nameResType x = some ts ∧ z ∈ ts)
    (h : bindTarget (.type y) t s = .ok u) : ∃ ts, Dict.get? u.nameResType x = some ts ∧ z ∈ ts := by
  unfold bindTarget at h
  cases ht : t.nameId with
  | none => rw [ht] at h; cases h; exact hs
  | some w =>
    rw [ht] at h
    replace h : addNameResType w y s = .ok u := h
    rw [upd_run h]
    obtain ⟨ts, h1, h2⟩ := hs
    show ∃ ts, Dict.get? (Dict.set s.nameResType w _) x = some ts ∧ z ∈ ts
    rw [Dict.get?_set]
    split
    · rename_i hx
      subst hx
      refine ⟨_, rfl, ?_⟩
      rw [h1, Option.getD_some]
      unfold addSet
      split
      · exact h2
      · simp [h2]
    · exact ⟨ts, h1, h2⟩
theorem bindTarget_defs {y : String} (t : Node) {x : String} {s u : S} (hs : x ∈ s.userDefs) (h : bindTarget (.type y) t s = .ok u) : x ∈ u.userDefs := by
  unfold bindTarget at h
  cases ht : t.nameId with
  | none => rw [ht] at h; cases h; exact hs
  | some z =>
    rw [ht] at h
    replace h : addNameResType z y s = .ok u := h
    rw [upd_run h]
    exact hs

theorem field_kid {n t : Node} {f : Fld} (h : n.field f = some t) : t ∈ n.kids ∧ t.fld = f := by
  unfold Node.field at h
  exact ⟨List.mem_of_find?_eq_some h, by simpa using List.find?_some h⟩

/-- Running the part of `visit_AugAssign` for `|=`, after the names of the target have been noted. -/
theorem aug_sure (hP : Keeps env p P) {f : Flag} {t v : Node} (hk : n.kind = .augAssign) (hm : n.line ∉ env.noLines) (ho : HasOp n .bitOr)
    (ht : n.field .target = some t) (hv : n.field .value = some v)
    (h : ∀ s0 s1 s2 s3, Known env P p n s2 → addUserDefNode t s0 = .ok s1 → addNameResAssign n s1 = .ok s2 → augBitOr env n t v s2 = .ok s3 → f ∈ s3.flags) :
    Sure env P p n f (visit env n) := by
  have hc := closed_traced env P p n hP
  have hA : ∀ ev, EmitsIn env (Known env P p n) n ev → At env p n ev := fun _ h => emitsIn_mono (fun _ h => h.toLearnt) h
  have ho' := operator_of ho
  refine visit_sure ?_
  unfold visitAlg
  simp only [hk]
  unfold visitAugAssign
  rw [ho', ht, hv]
  refine .gate hm (.fst (fun s u hl hu => ?_) (gen_growing env n).up)
  obtain ⟨s2, h1, h2⟩ := seq_run hu
  obtain ⟨s1, h3, h4⟩ := seq_run h1
  have hl1 := ((hc.addUserDefNode fun x hx => .inr (.inr (.inr (.inr (.inl ⟨.inl hk, t, ht, hx⟩)))) : Traced env P p n (addUserDefNode t)) s s1 hl h3).1
  have hl2 := (hc.addNameResAssign hA (.inr (.inl hk)) s1 s2 hl1 h4).1
  exact h s s1 s2 u hl2 h3 h4 h2

theorem becomes_dict {t v : Node} {x : String} {s1 s2 : S} (ht : n.field .target = some t) (hv : n.field .value = some v) (htx : IsName t x)
    (hd : (∃ ks, v.kind = .dict ks) ∨ CallsName v "dict") (h2 : addNameResAssign n s1 = .ok s2) : isDict s2.nameRes t = .ok true := by
  have hasg : assignedName s1.moduleAs v = .ok (.value "dict") := by
    unfold assignedName
    rcases hd with ⟨ks, hd⟩ | ⟨hd, hf⟩
    · simp only [hd]
    · obtain ⟨g, hg, hx⟩ := Option.bind_eq_some_iff.mp hf
      obtain ⟨c, hc⟩ := Acting.nameId_iff hx
      simp only [hd, assignedCall, hg, hc]
  have hget : Dict.get? s2.nameRes x = some "dict" := by
    unfold addNameResAssign at h2
    rw [hv] at h2
    replace h2 : V.lift (assignedName s1.moduleAs v) _ s1 = .ok s2 := h2
    rw [hasg] at h2
    obtain ⟨hm1, hm2⟩ := field_kid ht
    exact each_does (x := t) (Q := fun s => Dict.get? s.nameRes x = some "dict") (List.mem_filter.mpr ⟨hm1, by simp [hm2]⟩)
      (fun s u hu => bindTarget_value htx hu) (fun t' _ s u hs hu => bindTarget_keeps t' hs hu) h2
  rw [isDict_name htx, hget]; rfl

theorem dictMerge_sure {l : List Node} {t v : Node} (hk : n.kind = .augAssign) (hm : n.line ∉ env.noLines) (ho : HasOp n .bitOr)
    (ht : n.field .target = some t) (hv : n.field .value = some v) (hd : PlainDict env p l v) (hi : MergesInto env p l t v) :
    Sure env (FactsAt env p l) p n .dictUnionMerge (visit env n) := by
  refine aug_sure (keeps_facts env p l) hk hm ho ht hv fun s0 s1 s2 s3 hl2 h1 h2 h3 => ?_
  have htd : isDict s2.nameRes t = .ok true ∨ resolvesTo s2 env.tables.dictUnionMerge t = .ok true := by
    rcases hi with hi | hi | ⟨⟨x, hi⟩, hi'⟩
    · exact .inl (plainDict_of hi hl2)
    · exact .inr (oneOf_of hi hl2)
    · exact .inl (becomes_dict ht hv hi hi' h2)
  unfold augBitOr at h3
  replace h3 : V.lift (isDict s2.nameRes v) _ s2 = .ok s3 := h3
  rw [plainDict_of hd hl2] at h3
  replace h3 : V.lift (resolvesTo s2 env.tables.dictUnionMerge t) _ s2 = .ok s3 := h3
  cases hr : resolvesTo s2 env.tables.dictUnionMerge t with
  | error e => rw [hr] at h3; cases h3
  | ok a =>
    rw [hr] at h3
    replace h3 : V.lift (if a then .ok true else isDict s2.nameRes t) _ s2 = .ok s3 := h3
    have : (if a then .ok true else isDict s2.nameRes t) = Except.ok (ε := Err) true := by
      rcases htd with h | h
      · rw [h, ite_self]
      · rw [hr] at h; cases h; rfl
    rw [this] at h3
    exact Marks.found s2 s3 h3

theorem two_types {ys : List String} {y z : String} (hy : y ∈ ys) (hz : z ∈ ys) (h : y ≠ z) : decide (1 < ys.length) = true := by
  match ys with
  | [] => cases hy
  | [a] => rw [List.mem_singleton.mp hy, List.mem_singleton.mp hz] at h; exact absurd rfl h
  | a :: b :: ys => simp

theorem givenTypes_of {l : List Node} {x : String} (h : GivenTypes env l x) {s : S} (hs : Known env (FactsAt env p l) p n s) :
    ∃ ts, Dict.get? s.nameResType x = some ts ∧ decide (1 < ts.length) = true := by
  obtain ⟨y, z, hyz, hy, hz⟩ := h
  obtain ⟨ts, h1, h2⟩ := hs.known.types x y hy
  obtain ⟨ts', h3, h4⟩ := hs.known.types x z hz
  rw [h1] at h3
  injection h3 with h3
  subst h3
  exact ⟨ts, h1, two_types h2 h4 hyz⟩

theorem unionType_name {x : String} {e : Node} (hx : IsName e x) {s : S} {ts : List String} (h1 : Dict.get? s.nameResType x = some ts)
    (h2 : decide (1 < ts.length) = true) : isUnionType s e = .ok true := by
  obtain ⟨c, hc⟩ := hx
  unfold isUnionType nameOrAttr
  simp only [hc, h1, h2, Bool.or_true, Bool.true_or]

theorem typeVar_none {x : String} (hx : TypeVar p x) {s : S} (hs : Known env P p n s) : Dict.get? s.nameRes x = none := by
  cases hg : Dict.get? s.nameRes x with
  | none => rfl
  | some z =>
    obtain ⟨k, hk, ⟨w, ms, ha, _, hvn⟩ | ⟨hf, _, ⟨t, c, ht, hc⟩, _⟩⟩ := (hs.values x z hg).emits
    · obtain ⟨u, c, hu⟩ := hx.1 k w hk ha
      exact absurd hu (valueName_notName hvn)
    · exact absurd hc (hx.2 k t c hk hf ht)

theorem unionMerge_sure {l : List Node} {t v : Node} {x : String} (hf : env.cfg.hasFeature "union-types" = true) (hk : n.kind = .augAssign)
    (hm : n.line ∉ env.noLines) (ho : HasOp n .bitOr) (ht : n.field .target = some t) (hv : n.field .value = some v) (htx : t.kind = .name x .store)
    (hx : MergeTarget env p l x v) (hy : MergeValue env p l v) : Sure env (FactsAt env p l) p n .unionTypes (visit env n) := by
  refine aug_sure (keeps_facts env p l) hk hm ho ht hv fun s0 s1 s2 s3 hl2 h1 h2 h3 => ?_
  have hdef : x ∈ s1.userDefs := by
    unfold addUserDefNode at h1
    rw [htx] at h1
    replace h1 : addUserDef x s0 = .ok s1 := h1
    rw [upd_run h1]
    show x ∈ addSet s0.userDefs x
    unfold addSet
    split
    · rename_i hc; simpa using hc
    · simp
  have hget : ∀ y, TypeName v y → (∃ ts, Dict.get? s2.nameResType x = some ts ∧ y ∈ ts) ∧ x ∈ s2.userDefs := by
    intro y hvy
    unfold addNameResAssign at h2
    rw [hv] at h2
    replace h2 : V.lift (assignedName s1.moduleAs v) _ s1 = .ok s2 := h2
    have hasg : assignedName s1.moduleAs v = .ok (.type y) := by
      unfold assignedName
      rcases hvy with ⟨c, hc⟩ | ⟨hc, rfl⟩
      · simp only [hc]
      · simp only [hc, assignedConst]
    rw [hasg] at h2
    obtain ⟨hm1, hm2⟩ := field_kid ht
    have hnode := List.mem_filter (p := fun k => decide (k.fld = Fld.targets) || decide (k.fld = Fld.target)).mpr ⟨hm1, by simp [hm2]⟩
    have hdefs : x ∈ s2.userDefs :=
      each_keeps (Q := fun s => x ∈ s.userDefs) (fun t' _ s u hs hu => bindTarget_defs t' hs hu) hdef h2
    exact ⟨each_does (x := t) (Q := fun s => ∃ ts, Dict.get? s.nameResType x = some ts ∧ y ∈ ts) hnode
      (fun s u hu => bindTarget_type ⟨_, htx⟩ hu) (fun t' _ s u hs hu => bindTarget_type_keeps t' hs hu) h2, hdefs⟩
  have e1 : isUnionType s2 t = .ok true := by
    rcases hx with ⟨hx, y, c, hc⟩ | hx | ⟨y, z, hyz, hy, hz⟩
    · obtain ⟨⟨ts, h4, _⟩, h5⟩ := hget y (.inl ⟨c, hc⟩)
      unfold isUnionType nameOrAttr
      simp only [htx, Dict.has, typeVar_none hx hl2, h4, List.contains_iff_mem.mpr h5]
      simp
    · obtain ⟨ts, h4, h5⟩ := givenTypes_of hx hl2
      exact unionType_name ⟨_, htx⟩ h4 h5
    · obtain ⟨⟨ts, h4, h5⟩, _⟩ := hget z hz
      obtain ⟨ts', h6, h7⟩ := hl2.known.types x y hy
      rw [h4] at h6
      injection h6 with h6
      subst h6
      exact unionType_name ⟨_, htx⟩ h4 (two_types h7 h5 hyz)
  have e2 : isUnionType s2 v = .ok true ∧ isDict s2.nameRes v = .ok false := by
    rcases hy with hy | ⟨y, hvy, hy, hy'⟩
    · obtain ⟨z, h4, h5, h6, h7⟩ := freeRef_of hy hl2
      refine ⟨?_, h7⟩
      unfold isUnionType
      simp only [h4, Dict.has, h5, h6]
      rfl
    · obtain ⟨ts, h4, h5⟩ := givenTypes_of hy' hl2
      exact ⟨unionType_name hvy h4 h5, by rw [isDict_name hvy, typeVar_none hy hl2]; rfl⟩
  unfold augBitOr at h3
  replace h3 : V.lift (isDict s2.nameRes v) _ s2 = .ok s3 := h3
  rw [e2.2] at h3
  replace h3 : V.when (env.cfg.hasFeature "union-types") _ s2 = .ok s3 := h3
  rw [hf] at h3
  replace h3 : V.lift (bothOk (isUnionType s2 t) (isUnionType s2 v)) _ s2 = .ok s3 := h3
  rw [e1, e2.1] at h3
  exact Marks.found s2 s3 h3

/-! ### Counters of `yield` and `await` -/

/-- The counters have not decreased. -/
def Counts (s t : S) : Prop := s.seenYield ≤ t.seenYield ∧ s.seenAwait ≤ t.seenAwait

theorem rel_counts : Rel Counts := ⟨fun h k => ⟨Nat.le_trans h.1 k.1, Nat.le_trans h.2 k.2⟩, fun h => ⟨h.yields, h.awaits⟩⟩

theorem within_runs {m : Node} (h : Within env m n) : RunsIn Counts (visit env m) (visit env n) := by
  induction h with
  | self n => exact .here rel_counts
  | kid hv hc _ ih =>
    intro s t h
    obtain ⟨a, b, h1, h2, h3⟩ := kid_runs rel_counts hv (fun _ _ _ => ⟨Nat.le_refl _, Nat.le_refl _⟩) (fun _ _ _ _ => ⟨Nat.le_refl _, Nat.le_refl _⟩)
      (fun h => absurd h hc) s t h
    obtain ⟨c, d, h4, h5, h6⟩ := ih a b h2
    exact ⟨c, d, rel_counts.trans h1 h4, h5, rel_counts.trans h6 h3⟩

theorem yield_counts (hk : n.kind = .yield) (hm : ¬ Marked env n) {s t : S} (h : visit env n s = .ok t) : s.seenYield < t.seenYield := by
  rw [visitMk] at h
  unfold visitAlg at h
  simp only [hk] at h
  unfold visitYield gate at h
  have hl : n.line ∉ env.noLines := fun h => hm ⟨by rw [hk]; trivial, h⟩
  rw [if_neg (by simpa [Env.isNoLine] using hl)] at h
  obtain ⟨u, h1, h2⟩ := seq_run h
  have := (gen_growing env n u t h2).yields
  rw [upd_run h1] at this
  exact Nat.lt_of_succ_le this
theorem await_counts (hk : n.kind = .await) (hm : ¬ Marked env n) {s t : S} (h : visit env n s = .ok t) : s.seenAwait < t.seenAwait := by
  rw [visitMk] at h
  unfold visitAlg at h
  simp only [hk] at h
  unfold visitAwait gate at h
  have hl : n.line ∉ env.noLines := fun h => hm ⟨by rw [hk]; trivial, h⟩
  rw [if_neg (by simpa [Env.isNoLine] using hl)] at h
  obtain ⟨u, h1, h2⟩ := seq_run h
  obtain ⟨w, h3, h4⟩ := seq_run h1
  have h5 := (gen_growing env n u t h2).awaits
  have h6 := (Growing.found (env := env) s w h3).awaits
  rw [upd_run h4] at h5
  exact Nat.lt_of_le_of_lt h6 (Nat.lt_of_succ_le h5)

/-- A node that is looked at within `n` is counted by what visits the children of `n`. -/
theorem yield_in {v : V} {c : Node} {m : Node} (hv : RunsIn Counts (visit env c) v) (hw : Within env m c) (hk : m.kind = .yield) (hm : ¬ Marked env m) {s t : S}
    (h : v s = .ok t) : s.seenYield < t.seenYield := by
  obtain ⟨a, b, h1, h2, h3⟩ := hv s t h
  obtain ⟨a', b', h4, h5, h6⟩ := within_runs hw a b h2
  have := yield_counts hk hm h5
  have := h1.1; have := h3.1; have := h4.1; have := h6.1
  omega
theorem await_in {v : V} {c : Node} {m : Node} (hv : RunsIn Counts (visit env c) v) (hw : Within env m c) (hk : m.kind = .await) (hm : ¬ Marked env m) {s t : S}
    (h : v s = .ok t) : s.seenAwait < t.seenAwait := by
  obtain ⟨a, b, h1, h2, h3⟩ := hv s t h
  obtain ⟨a', b', h4, h5, h6⟩ := within_runs hw a b h2
  have := await_counts hk hm h5
  have := h1.2; have := h3.2; have := h4.2; have := h6.2
  omega

theorem kid_gen {c : Node} (hc : c ∈ n.kids) : RunsIn Counts (visit env c) (gen env n (visitKids env n.kids)) :=
  gen_runs rel_counts (c := ⟨c, visit env c, genericVisit env c⟩) (mem_visitKids hc) (kids_growing env n).visits

theorem kid_handle {name : String} (hn : DefinesFunction n name) {c : Node} (hv : Visits env n c) :
    RunsIn Counts (visit env c) (handleFunctionDef env n name (visitKids env n.kids)) := by
  have hc := closed_growing env n
  have hA : ∀ ev, Emits env n ev → True := fun _ _ => trivial
  refine .fst rel_counts (.snd rel_counts (.seq (.seq (hc.userDef trivial) (hc.dirFuncs hA hn)) (hc.funcDecos hA ⟨name, hn⟩)) ?_) (hc.funcAnns hA ⟨name, hn⟩)
  refine .scope (fun _ _ => ⟨Nat.le_refl _, Nat.le_refl _⟩) rel_counts.trans (gen_runs rel_counts (c := ⟨c, visit env c, genericVisit env c⟩)
    (List.mem_filter.mpr ⟨mem_visitKids hv.1, ?_⟩) fun c hc => (kids_growing env n).visits c (List.mem_filter.mp hc).1)
  by_cases he : env.cfg.evalAnnotations = true
  · simp [he]
  · have : c.fld ≠ .returns := fun h => hv.2.2.2 ⟨by simpa using he, .inr ⟨⟨name, hn⟩, h⟩⟩
    simp [this]

theorem asyncGenerator_sure {name : String} (hk : n.kind = .asyncFunctionDef name) (hm : n.line ∉ env.noLines) (hy : Contains env n .yield)
    (ha : Contains env n .await) : Sure env P p n .asyncGenerator (visit env n) := by
  obtain ⟨c, m, h1, h2, h3, h4⟩ := hy
  obtain ⟨c', m', h5, h6, h7, h8⟩ := ha
  refine visit_sure ?_
  unfold visitAlg
  simp only [hk]
  refine .gate hm fun s t _ h => ?_
  obtain ⟨u, h9, h10⟩ := seq_run (show (handleFunctionDef env n name (visitKids env n.kids) ;; _ ;; _ ;; _) s = .ok t from h)
  obtain ⟨w, h11, h12⟩ := seq_run h9
  obtain ⟨z, h13, h14⟩ := seq_run h11
  have hg := Growing.found (env := env) z w h14
  have y1 := yield_in (kid_handle (.inr hk) h1) h2 h3 h4 h13
  have y2 := await_in (kid_handle (.inr hk) h5) h6 h7 h8 h13
  have y3 := hg.yields
  have y4 := hg.awaits
  replace h12 : V.when (decide (s.seenYield < w.seenYield) && decide (s.seenAwait < w.seenAwait)) _ w = .ok u := h12
  rw [decide_eq_true (by omega), decide_eq_true (by omega)] at h12
  rw [upd_run h10]
  exact Marks.found w u h12

theorem awaitInComp_sure {b : Bool} (hk : n.kind = .comprehension b) (ha : Contains env n .await) : Sure env P p n .awaitInComprehension (visit env n) := by
  obtain ⟨c', m', h5, h6, h7, h8⟩ := ha
  refine visit_sure ?_
  unfold visitAlg
  simp only [hk]
  refine .of (.snd fun s t h => ?_)
  obtain ⟨u, h9, h10⟩ := seq_run (show (gen env n (visitKids env n.kids) ;; _ ;; _) s = .ok t from h)
  obtain ⟨w, h11, h12⟩ := seq_run h9
  have y2 := await_in (kid_gen h5.1) h6 h7 h8 h11
  replace h12 : V.when (decide (s.seenAwait < w.seenAwait)) _ w = .ok u := h12
  rw [decide_eq_true (by omega)] at h12
  rw [upd_run h10]
  exact Marks.found w u h12

/-! ### Ellipses -/

theorem ellipsis_sure (hk : n.kind = .const .ellipsis) (h : ∀ k e, In k p → InSlice k e → e.info.uid ≠ n.info.uid) :
    Sure env P p n .ellipsisOutOfSlices (visit env n) := by
  refine visit_sure ?_
  unfold visitAlg
  simp only [hk]
  unfold visitConstant visitEllipsis
  refine .rd fun s hs => .when ?_ .found
  rw [Bool.not_eq_true', ← Bool.not_eq_true]
  intro hc
  obtain ⟨k, hk, e, he, _, hu⟩ := hs.slices _ (List.contains_iff_mem.mp hc)
  exact h k e hk he hu

/-! ### Lines of the source -/

theorem splitlinesAux_breaks : ∀ (s cur : List Char), (∀ c ∈ cur, isLineBreak c = false) → ∀ l ∈ splitlinesAux s cur, ∀ c ∈ l, isLineBreak c = false := by
  intro s cur
  fun_induction splitlinesAux s cur with
  | case1 cur h => intro _ l hl; cases hl
  | case2 cur h =>
    intro hc l hl c hcl
    rw [List.mem_singleton.mp hl] at hcl
    exact hc c (List.mem_reverse.mp hcl)
  | case3 cs cur ih =>
    intro hc l hl c hcl
    rcases List.mem_cons.mp hl with rfl | hl
    · exact hc c (List.mem_reverse.mp hcl)
    · exact ih (fun _ h => nomatch h) l hl c hcl
  | case4 c cs cur hne hb ih =>
    intro hc l hl d hcl
    rcases List.mem_cons.mp hl with rfl | hl
    · exact hc d (List.mem_reverse.mp hcl)
    · exact ih (fun _ h => nomatch h) l hl d hcl
  | case5 c cs cur hne hb ih =>
    intro hc l hl d hcl
    refine ih (fun d hd => ?_) l hl d hcl
    rcases List.mem_cons.mp hd with rfl | hd
    · simpa using hb
    · exact hc d hd

theorem splitlinesAux_head : ∀ (line r cur : List Char), (∀ c ∈ line, isLineBreak c = false) → (r = [] ∧ (line ≠ [] ∨ cur ≠ [])) ∨ (∃ r', r = '\n' :: r') →
    ∃ ls, splitlinesAux (line ++ r) cur = (cur.reverse ++ line) :: ls
  | [], r, cur, _, h => by
    rcases h with ⟨rfl, h⟩ | ⟨r', rfl⟩
    · refine ⟨[], ?_⟩
      show (if cur.isEmpty then [] else [cur.reverse]) = _
      rw [if_neg (by simpa using h)]
      simp
    · refine ⟨splitlinesAux r' [], ?_⟩
      show splitlinesAux ('\n' :: r') cur = _
      rw [splitlinesAux.eq_3 _ _ _ (by intro cs h; exact absurd h (by decide))]
      rw [if_pos (by decide), List.append_nil]
  | c :: line, r, cur, hc, h => by
    obtain ⟨ls, hls⟩ := splitlinesAux_head line r (c :: cur) (fun d hd => hc d (.tail _ hd)) (h.imp (fun h => ⟨h.1, .inr (by simp)⟩) id)
    refine ⟨ls, ?_⟩
    show splitlinesAux (c :: (line ++ r)) cur = _
    have hcb := hc c (.head _)
    rw [splitlinesAux.eq_3 _ _ _ (by rintro cs rfl _; exact absurd hcb (by decide)), if_neg (by simp [hcb]), hls]
    simp

theorem dropWhile_until {q : Char → Bool} {ws : List Char} {c : Char} {b : List Char} (h : ∀ c ∈ ws, q c = true) (hc : q c = false) :
    (ws ++ c :: b).dropWhile q = c :: b := by
  induction ws with
  | nil => simp [hc]
  | cons d ws ih =>
    rw [List.cons_append, List.dropWhile_cons, if_pos (h d (.head _))]
    exact ih fun c hc => h c (.tail _ hc)

theorem withParenStart_of {ws b : List Char} (hws : ∀ c ∈ ws, isSpace c = true ∨ c = '\\') : ∀ (a : List Char) (j : Nat),
    ∃ i, withParenStart j (a ++ ("with".toList ++ ws ++ '(' :: b)) = some i ∧ i ≤ j + a.length
  | [], j => by
    refine ⟨j, ?_, Nat.le_refl _⟩
    show withParenStart j ('w' :: 'i' :: 't' :: 'h' :: (ws ++ '(' :: b)) = some j
    unfold withParenStart
    rw [if_pos]
    have h1 : startsWith "with".toList ('w' :: 'i' :: 't' :: 'h' :: (ws ++ '(' :: b)) = true := List.isPrefixOf_iff_prefix.mpr ⟨ws ++ '(' :: b, rfl⟩
    have h2 : parenFollows (ws ++ '(' :: b) = true := by
      unfold parenFollows
      rw [dropWhile_until (fun c hc => by rcases hws c hc with h | h <;> simp [h]) (by decide)]
      rfl
    rw [h1]
    exact h2
  | c :: a, j => by
    obtain ⟨i, h1, h2⟩ := withParenStart_of hws a (j + 1)
    show ∃ i, withParenStart j (c :: (a ++ ("with".toList ++ ws ++ '(' :: b))) = some i ∧ _
    unfold withParenStart
    split
    · exact ⟨j, rfl, by simp⟩
    · exact ⟨i, h1, by simpa [Nat.add_assoc, Nat.add_comm 1] using h2⟩

theorem sourceLine_of {i : Nat} {l : List Char} (h : SourceLine env i l) : sourceLine env i = some l := by
  obtain ⟨t, _, ht, hls, hi, hl⟩ := h
  obtain rfl := lines_iff.mp hls
  unfold sourceLine
  rw [ht]
  show (if i = 0 then none else _) = _
  rw [if_neg (by omega)]
  exact hl

theorem isWithParen_of {line a ws b : List Char} (hl : SourceLine env n.line line) (hws : ∀ c ∈ ws, isSpace c = true ∨ c = '\\')
    (he : line = a ++ "with".toList ++ ws ++ '(' :: b) : isWithParen env n = true := by
  have hnb : ∀ c ∈ line, isLineBreak c = false := by
    obtain ⟨t, _, _, hls, _, hl⟩ := hl
    obtain rfl := lines_iff.mp hls
    exact splitlinesAux_breaks t [] (fun _ h => nomatch h) line (List.mem_of_getElem? hl)
  have hsrc : ∃ r, sourceLines env n.line (n.line + 10) = line ++ r ∧ (r = [] ∨ ∃ r', r = '\n' :: r') := by
    unfold sourceLines
    rw [show n.line + 10 + 1 = (n.line + 10) + 1 from rfl, List.range_succ_eq_map, List.filterMap_cons]
    simp only [Nat.add_zero, sourceLine_of hl]
    generalize List.filterMap _ _ = ls
    cases ls with
    | nil => exact ⟨[], by simp [join], .inl rfl⟩
    | cons x xs => exact ⟨'\n' :: join ['\n'] (x :: xs), by simp [join], .inr ⟨_, rfl⟩⟩
  obtain ⟨r, hr, hr'⟩ := hsrc
  have hne : line ≠ [] := by rw [he]; simp
  obtain ⟨ls, hls⟩ := splitlinesAux_head line r [] hnb (hr'.imp (fun h => ⟨h, .inl hne⟩) id)
  obtain ⟨i, hi, hile⟩ := withParenStart_of (b := b ++ r) hws a 0
  unfold isWithParen
  rw [hr]
  have e1 : line ++ r = a ++ ("with".toList ++ ws ++ '(' :: (b ++ r)) := by rw [he]; simp
  have e2 : withParenStart 0 (line ++ r) = some i := by rw [e1]; exact hi
  have e3 : splitlines (line ++ r) = line :: ls := hls
  simp only [e2, e3, decide_eq_true_eq]
  rw [he]
  simp
  omega

theorem withParen_sure (hk : n.kind = .with ∨ n.kind = .asyncWith) (hm : n.line ∉ env.noLines) (hi : 2 ≤ (n.fields .items).length) {line a ws b : List Char}
    (hl : SourceLine env n.line line) (hws : ∀ c ∈ ws, isSpace c = true ∨ c = '\\') (he : line = a ++ "with".toList ++ ws ++ '(' :: b) :
    Sure env P p n .withParentheses (visit env n) := by
  have hw : Marks .withParentheses (handleWith env n (visitKids env n.kids)) :=
    .scope (.fst (.snd (.when (decide_eq_true hi) (.snd (.when (isWithParen_of hl hws he) .found)))) (gen_growing env n).up)
  refine visit_sure ?_
  unfold visitAlg
  rcases hk with hk | hk <;> simp only [hk] <;> exact .of (.gate hm (.snd hw))

/-! ### f-strings -/

theorem space_of_blank {c : Char} (h : Blank c) : isSpace c = true := by
  rcases h with rfl | rfl | rfl | rfl | rfl | rfl <;> decide
theorem compact_blank {t : List Char} (h : ∀ c ∈ t, Blank c) : compact t = [] := by
  unfold compact
  rw [List.filter_eq_nil_iff]
  intro c hc
  simp [h c hc]

theorem dropWhile_append {q : Char → Bool} {c : Char} (hc : q c = false) (b : List Char) : ∀ a : List Char, ∃ a', (a ++ c :: b).dropWhile q = a' ++ c :: b
  | [] => ⟨[], by simp [hc]⟩
  | d :: a => by
    rw [List.cons_append, List.dropWhile_cons]
    split
    · exact dropWhile_append hc b a
    · exact ⟨d :: a, rfl⟩
theorem strip_ends {x ws : List Char} (hws : ∀ c ∈ ws, isSpace c = true) : endsWith ['='] (strip (x ++ '=' :: ws)) = true := by
  unfold strip lstrip rstrip
  obtain ⟨x', hx⟩ := dropWhile_append (q := isSpace) (c := '=') (by decide) ws x
  rw [hx, List.reverse_append, List.reverse_cons, List.append_assoc, List.singleton_append,
    dropWhile_until (fun c hc => hws c (List.mem_reverse.mp hc)) (by decide)]
  exact List.isSuffixOf_iff_suffix.mpr ⟨x', by simp⟩

theorem selfDoc_of {s : S} {t e : Node} {ys : List Node} (h : selfDocPair s t e = .ok true) : ∀ (xs : List Node) {v : Bool},
    selfDoc s (xs ++ t :: e :: ys) = .ok v → v = true
  | [], v, hv => by
    replace hv : (match selfDocPair s t e with | .ok true => .ok true | .ok false => selfDoc s (e :: ys) | .error e => .error e) = Except.ok v := hv
    rw [h] at hv
    cases hv; rfl
  | [x], v, hv => by
    replace hv : (match selfDocPair s x t with | .ok true => .ok true | .ok false => selfDoc s (t :: e :: ys) | .error e => .error e) = Except.ok v := hv
    split at hv
    · cases hv; rfl
    · exact selfDoc_of h [] hv
    · cases hv
  | x :: x' :: xs, v, hv => by
    replace hv : (match selfDocPair s x x' with | .ok true => .ok true | .ok false => selfDoc s (x' :: xs ++ t :: e :: ys) | .error e => .error e) = Except.ok v := hv
    split at hv
    · cases hv; rfl
    · exact selfDoc_of h (x' :: xs) hv
    · cases hv

theorem dottedText_ne : ∀ (bs : List String) {a : String}, a.toList ≠ [] → (dottedText a bs).toList ≠ []
  | [], _, h => h
  | b :: bs, a, h => dottedText_ne bs (a := a ++ "." ++ b) (by simp [String.toList_append, h])

theorem selfDocPair_of {t e : Node} (h : SelfDoc p t e) {s : S} (hs : Known env P p n s) : selfDocPair s t e = .ok true := by
  obtain ⟨v, txt, u, w, ws, h1, h2, h3, h4, h5, h6, h7⟩ := h
  obtain ⟨y, hy, hc⟩ := (written_extracts (fun a ha => unrenamed ha hs.renames) h7).ext
  unfold selfDocPair
  rw [strVal_of h1]
  simp only [h2, h3, hy, h4, trim_eq, hc]
  rw [strip_ends fun c hc => space_of_blank (h5 c hc)]
  simp only [decide_true, Bool.and_self, if_true, compact_append]
  rw [show ('=' :: ws) = ['='] ++ ws from rfl, compact_append, compact_blank h5, show compact ['='] = ['='] by decide]
  have : endsWith (compact w ++ ['=']) (compact u ++ compact w ++ (['='] ++ [])) = true :=
    List.isSuffixOf_iff_suffix.mpr ⟨compact u, by simp⟩
  rw [this]
  simp [h6]

theorem selfDoc_sure {xs ys : List Node} {t e : Node} (hf : env.cfg.hasFeature "fstring-self-doc" = true) (hk : n.kind = .joinedStr)
    (hv : n.fields .values = xs ++ t :: e :: ys) (h : SelfDoc p t e) : Sure env P p n .fstringsSelfDoc (visit env n) := by
  refine visit_sure ?_
  unfold visitAlg
  simp only [hk]
  refine .fst (.snd (.seq (.flag _) (.print _ _ _ _ _ _)) (.when hf (.rd fun s hs => .lift fun v hv' => .when ?_ .found))) (gen_growing env n).up
  rw [hv] at hv'
  exact selfDoc_of (selfDocPair_of h hs) xs hv'

/-! ### All of them -/

/-- A construct is reported when it is visited, with the facts of the statements before. -/
theorem settled_sure {l : List Node} {f : Flag} (h : Settled env p l n f) (hm : ¬ Marked env n) : Sure env (FactsAt env p l) p n f (visit env n) := by
  have hP := keeps_facts env p l
  have hline : Markable n.kind → n.line ∉ env.noLines := fun h1 h2 => hm ⟨h1, h2⟩
  have hfun : IsFunction n → n.line ∉ env.noLines := fun ⟨_, h⟩ => hline (by rcases h with h | h <;> rw [h] <;> trivial)
  cases h with
  | long h1 h2 h3 => exact long_sure h1 h2 h3
  | pow h1 h2 => exact pow_sure hP h1 (hline (by rw [h1.1.1]; trivial)) h2
  | super h1 h2 => exact super_sure hP h1 (hline (by rw [h1.1.1]; trivial)) h2
  | literalVar h1 h2 h3 => exact (annAssign_sure h1 (hline (by rw [h1]; trivial))).2 _ h2 h3
  | literalParam h1 h2 =>
    have := literalParam_sure hP h2 (hfun h2.1)
    rwa [if_pos h1] at this
  | maybeVar h1 h2 => exact (annAssign_sure h2 (hline (by rw [h2]; trivial))).1 h1
  | maybeParam h1 h2 =>
    have := literalParam_sure hP h2 (hfun h2.1)
    rwa [if_neg (by simp [h1])] at this
  | maybeGeneric h1 h2 =>
    have := generic_sure h2 (hline (by rw [h2.1]; trivial))
    rwa [if_neg (by simp [h1])] at this
  | generic h1 h2 =>
    have := generic_sure h2 (hline (by rw [h2.1]; trivial))
    rwa [if_pos h1] at this
  | dictUnion h1 h2 h3 h4 h5 h6 => exact dictUnion_sure h1 h2 h3 h4 h5 h6
  | dictMerge h1 h2 h3 h4 h5 h6 => exact dictMerge_sure h1 (hline (by rw [h1]; trivial)) h2 h3 h4 h5 h6
  | union h1 h2 h3 h4 h5 h6 h7 => exact union_sure h1 h2 h3 h4 h5 h6 h7
  | unionMerge h1 h2 h3 h4 h5 h6 h7 h8 => exact unionMerge_sure h1 h2 (hline (by rw [h2]; trivial)) h3 h4 h5 h6 h7 h8
  | asyncGenerator h1 h2 h3 => exact asyncGenerator_sure h1 (hline (by rw [h1]; trivial)) h2 h3
  | awaitInComprehension h1 h2 => exact awaitInComp_sure h1 h2
  | ellipsis h1 h2 => exact ellipsis_sure h1 h2
  | selfDoc h1 h2 h3 h4 => exact selfDoc_sure h1 h2 h3 h4
  | withParentheses h1 h2 h3 h4 h5 => exact withParen_sure h1 (hline (by rcases h1 with h | h <;> rw [h] <;> trivial)) h2 h3 (fun c hc => (h4 c hc).imp_left (space_iff c).mpr) h5

/-- What one of several statements tells is known after them. -/
theorem told_after (hP : Keeps env p P) {l : List Node} (hl : ∀ k ∈ l, k ∈ p.kids) {i : Node} (hi : i ∈ l) (ht : Tells env P p i (visit env i)) {u a : S}
    (hu : Learnt env p p u) (ha : V.each Child.visit (visitKids env l) u = .ok a) : P a.moduleAs a.importMemMod a.nameRes a.nameResType := by
  obtain ⟨m₁, m₂, rfl⟩ := List.append_of_mem hi
  rw [visitKids_append] at ha
  obtain ⟨b, c, h1, h2, h3⟩ := each_split ha
  have h0 := keeps_anything env p
  have hip : i ∈ p.kids := hl i (by simp)
  have hlb : Learnt env p p b := (each_known h0 fun k hk => hl k (by simp [hk])).learnt hu h1
  have hlc : Learnt env p p c := (traced_up hip (visit_traced env Anything p i h0)).learnt hlb h2
  have hk := (ht b c (learnt_down hip (learnt_known hlb)).toLearnt h2).known
  exact (each_known hP (fun k hk => hl k (by simp [hk])) c a { hlc with known := hk } h3).1.known

theorem facts_after {l : List Node} (hl : ∀ k ∈ l, k ∈ p.kids) {u a : S} (hu : Learnt env p p u) (ha : V.each Child.visit (visitKids env l) u = .ok a) :
    FactsAt env p l a.moduleAs a.importMemMod a.nameRes a.nameResType := by
  refine ⟨fun x y hx => ?_, fun x m hx => ?_, fun y m hy => ?_, fun x y hx => ?_⟩
  · obtain ⟨hal, i, hi, hm, v, hv, hd⟩ := hx
    have hip : In i p := .kid (hl i hi) (.self i)
    exact told_after (keeps_value hal) hl hi (tells_assigns (keeps_value hal) (fun _ _ _ _ => Dict.get?_set_self ..) hv hd hm) hu ha
  · obtain ⟨hid, hs, hun, i, hi, hif, hm⟩ := hx
    have hkp : Keeps env p (fun _ os _ _ => Dict.get? os x = some m) := by
      refine ⟨fun _ _ _ _ _ _ _ _ _ h => h, fun k z y _ os _ _ hk he h => ?_, fun _ _ _ _ _ _ _ _ _ h => h, fun _ _ _ _ _ _ _ _ _ h => h⟩
      rw [Dict.get?_set]
      split
      · rename_i hxz
        subst hxz
        obtain ⟨h1, h2, a, ha, ⟨w, h3⟩ | h3⟩ := he
        · rw [hun k y hk ⟨h1, a, ha, w, h3⟩]
        · exact absurd h3.1 hid.1
      · exact h
    exact told_after hkp hl hi (tells_origin hkp (fun _ _ _ _ => Dict.get?_set_self ..) hif hs hm) hu ha
  · obtain ⟨hun, i, hi, hia, hm⟩ := hy
    have hkp : Keeps env p (fun ms _ _ _ => Dict.get? ms y = some m) := by
      refine ⟨fun k x z ms _ _ _ hk hr h => ?_, fun _ _ _ _ _ _ _ _ _ h => h, fun _ _ _ _ _ _ _ _ _ h => h, fun _ _ _ _ _ _ _ _ _ h => h⟩
      rw [Dict.get?_set]
      split
      · rename_i hxy
        rw [hun k z hk (hxy ▸ hr)]
      · exact h
    exact told_after hkp hl hi (tells_rename hkp (fun _ _ _ _ => Dict.get?_set_self ..) hia hm) hu ha
  · obtain ⟨i, hi, hm, hx⟩ := hx
    have hset : ∀ ts : Types, ∃ ys, Dict.get? (Dict.set ts x (addSet ((Dict.get? ts x).getD []) y)) x = some ys ∧ y ∈ ys := fun ts => by
      refine ⟨_, Dict.get?_set_self .., ?_⟩
      unfold addSet
      split
      · rename_i hc; exact List.contains_iff_mem.mp hc
      · simp
    refine told_after (keeps_type (x := x) (y := y)) hl hi ?_ hu ha
    rcases hx with ⟨v, hv, hd⟩ | ⟨hc, rfl⟩
    · exact tells_types keeps_type (fun _ _ _ _ => hset _) hv hd hm
    · exact tells_class keeps_type (fun _ _ _ _ => hset _) hc hm

/-- The visit of a program visits what is looked at in its statements, with the facts of the statements before. -/
theorem place_run {l₁ l₂ : List Node} {k : Node} (hk : p.kind = .module) (hks : p.kids = l₁ ++ k :: l₂) {t : S} (hv : visit env p S.init = .ok t) :
    ∃ a b, Known env (FactsAt env p l₁) p k a ∧ a.depth = 1 ∧ visit env k a = .ok b ∧ More b t := by
  rw [visitMk env p] at hv
  unfold visitAlg at hv
  simp only [hk] at hv
  unfold gen at hv
  obtain ⟨w, h1, h2⟩ := seq_run hv
  obtain ⟨u, h3, h4⟩ := seq_run h1
  have hwt : More w t := by rw [upd_run h2]; exact Rel.more.grow { Grows.refl w with }
  obtain ⟨li, o, rfl⟩ := genEnter_run h3
  have hlu : Learnt env p p { S.init with line := li, depth := 1, out := S.init.out ++ o } := { learnt_init env p with }
  rw [hks, visitKids_append] at h4
  obtain ⟨a, b, h5, h6, h7⟩ := each_split h4
  have hsub : ∀ k ∈ l₁, k ∈ p.kids := fun k hk => by rw [hks]; simp [hk]
  have hf := facts_after hsub hlu h5
  have hla : Learnt env p p a := (each_known (keeps_anything env p) hsub).learnt hlu h5
  refine ⟨a, b, learnt_down (by rw [hks]; simp) { hla with known := hf }, ?_, h6, Rel.more.trans (Rel.more.grow (each_growing _ _ _ h7)) hwt⟩
  exact each_keeps (Q := fun s => s.depth = 1) (fun c hc s u hs hu => by
    obtain ⟨_, h2, _⟩ := of_mem_visitKids hc
    rw [h2] at hu
    rw [(visit_steps env c.node s u hu).depth]; exact hs) rfl h5

theorem settled_reported {l₁ l₂ : List Node} {k : Node} (hk : p.kind = .module) (hks : p.kids = l₁ ++ k :: l₂) (hr : Seen env p n k) (hm : ¬ Marked env n) {f : Flag}
    (h : Settled env p l₁ n f) {t : S} (hv : visit env p S.init = .ok t) : f ∈ t.flags := by
  obtain ⟨a, b, h1, _, h2, h3⟩ := place_run hk hks hv
  obtain ⟨c, d, _, h5, h6, h7⟩ := seen_learnt (keeps_facts env p l₁) hr h1 h2
  exact h3.flags (h7.flags (settled_sure h hm c d h5 h6))

/-- `__dir__` and `__getattr__` of a package -/
theorem module_reported {l₁ l₂ : List Node} (hk : p.kind = .module) (hks : p.kids = l₁ ++ n :: l₂) (hm : n.line ∉ env.noLines) (hi : env.isInitFile = true) {t : S}
    (hv : visit env p S.init = .ok t) :
    (ModuleFunction n "__dir__" 0 → .moduleDirFunc ∈ t.flags) ∧ (ModuleFunction n "__getattr__" 1 → .moduleGetattrFunc ∈ t.flags) := by
  obtain ⟨a, b, h1, h2, h3, h4⟩ := place_run hk hks hv
  have hc := closed_growing env n
  have hA : ∀ ev, Emits env n ev → True := fun _ _ => trivial
  have key : ∀ (f : Flag) (name : String), DefinesFunction n name →
      (∀ s u, s.depth = 1 → dirFuncs env n name s = .ok u → f ∈ u.flags) → f ∈ t.flags := by
    intro f name hn hd
    refine h4.flags ?_
    have hh : ∀ u, handleFunctionDef env n name (visitKids env n.kids) a = .ok u → f ∈ u.flags := by
      intro u hu
      obtain ⟨u1, g1, g2⟩ := seq_run hu
      obtain ⟨u2, g3, g4⟩ := seq_run g1
      obtain ⟨u3, g5, g6⟩ := seq_run g3
      obtain ⟨u4, g7, g8⟩ := seq_run g5
      have hdep : u4.depth = 1 := by rw [upd_run g7]; exact h2
      have e1 := hd u4 u3 hdep g8
      have e2 := (hc.funcDecos hA ⟨name, hn⟩ u3 u2 g6).flags e1
      have e3 := (hc.inScope (a' := V.skip) (hc.generic (dropReturns env n) (Kids.dropReturns (d := env.display) (kids_growing env n))) u2 u1 g4).flags e2
      exact (hc.funcAnns hA ⟨name, hn⟩ u1 u g2).flags e3
    rw [visitMk] at h3
    unfold visitAlg at h3
    rcases hn with hn | hn
    · simp only [hn] at h3
      unfold visitFunctionDef gate at h3
      rw [if_neg (by simpa [Env.isNoLine] using hm)] at h3
      obtain ⟨u, g1, g2⟩ := seq_run (show (handleFunctionDef env n name (visitKids env n.kids) ;; _) a = .ok b from h3)
      rw [upd_run g2]
      exact hh u g1
    · simp only [hn] at h3
      unfold visitAsyncFunctionDef gate at h3
      rw [if_neg (by simpa [Env.isNoLine] using hm)] at h3
      obtain ⟨u, g1, g2⟩ := seq_run (show (handleFunctionDef env n name (visitKids env n.kids) ;; _ ;; _ ;; _) a = .ok b from h3)
      obtain ⟨u1, g3, g4⟩ := seq_run g1
      obtain ⟨u2, g5, g6⟩ := seq_run g3
      rw [upd_run g2]
      exact (Growing.rd (fun s' => .when .found) u1 u g4).flags ((Growing.found u2 u1 g6).flags (hh u2 g5))
  constructor
  · rintro ⟨hn, as, has, p1, p2, p3, p4⟩
    refine key _ _ hn fun s u hs hu => ?_
    unfold dirFuncs at hu
    rw [has] at hu
    replace hu : V.when _ _ s = .ok u := hu
    rw [hs, hi, p1, p2, p3] at hu
    replace hu : (if "__dir__" = "__dir__" ∧ (as.fields .args).length = 0 then _ else _ : V) s = .ok u := hu
    rw [if_pos ⟨rfl, p4⟩] at hu
    exact Marks.found s u hu
  · rintro ⟨hn, as, has, p1, p2, p3, p4⟩
    refine key _ _ hn fun s u hs hu => ?_
    unfold dirFuncs at hu
    rw [has] at hu
    replace hu : V.when _ _ s = .ok u := hu
    rw [hs, hi, p1, p2, p3] at hu
    simp [p4, V.when] at hu
    exact Marks.found s u hu

end
end Vermin
