import Verif.Lemmas.Traced
import Verif.Spec.Chains
/-
What is certain to be found of names: imports, calls and attributes.
-/
namespace Vermin
open Py V Spec

/-- Running `v` at `n` runs `g`, with what may be known there. -/
def LRuns (env : Env) (P : Facts) (p n : Node) (g v : V) : Prop :=
  ∀ s t, Known env P p n s → v s = .ok t → ∃ a b, Known env P p n a ∧ g a = .ok b ∧ More b t

namespace LRuns
variable {env : Env} {P : Facts} {p n : Node} {g : V}

theorem here : LRuns env P p n g g := fun s t hl h => ⟨s, t, hl, h, Rel.more.grow (.refl t)⟩
theorem fst {a b : V} (ha : LRuns env P p n g a) (hb : Growing b) : LRuns env P p n g (a ;; b) := fun s t hl h => by
  obtain ⟨u, h1, h2⟩ := seq_run h
  obtain ⟨x, y, hx, hg, hy⟩ := ha s u hl h1
  exact ⟨x, y, hx, hg, Rel.more.trans hy (Rel.more.grow (hb u t h2))⟩
theorem snd {a b : V} (ha : Traced env P p n a) (hb : LRuns env P p n g b) : LRuns env P p n g (a ;; b) := fun s t hl h => by
  obtain ⟨u, h1, h2⟩ := seq_run h
  exact hb u t (ha s u hl h1).1 h2
theorem rd {f : S → V} (hf : ∀ s, Known env P p n s → LRuns env P p n g (f s)) : LRuns env P p n g (V.rd f) := fun s t hl h => hf s hl s t hl h
theorem gate {v : V} (hn : n.line ∉ env.noLines) (hv : LRuns env P p n g v) : LRuns env P p n g (gate env n v) := by
  unfold Vermin.gate
  rw [if_neg (by simpa [Env.isNoLine] using hn)]
  exact hv
theorem when {c : Bool} {v : V} (hc : c = true) (hv : LRuns env P p n g v) : LRuns env P p n g (V.when c v) := by
  subst hc; exact hv
theorem opt {α : Type} {x : Option α} {y : α} {a : V} {k : α → V} (hx : x = some y) (hk : LRuns env P p n g (k y)) : LRuns env P p n g (V.opt x a k) := by
  subst hx; exact hk
theorem each {α : Type} {f : α → V} {l : List α} {x : α} (hx : x ∈ l) (hf : LRuns env P p n g (f x)) (ht : ∀ y ∈ l, Traced env P p n (f y))
    (hg : ∀ y ∈ l, Growing (f y)) : LRuns env P p n g (V.each f l) := by
  induction l with
  | nil => cases hx
  | cons y l ih =>
    rcases List.mem_cons.mp hx with rfl | hx
    · exact .fst hf (.each fun z hz => hg z (.tail _ hz))
    · exact .snd (ht y (.head _)) (ih hx (fun z hz => ht z (.tail _ hz)) fun z hz => hg z (.tail _ hz))
end LRuns

section
variable {env : Env} {P : Facts} {p n : Node}

theorem not_userDef {x : String} {s : S} (hl : Known env P p n s) (hx : Undefined p x) : s.userDefs.contains x = false := by
  rw [Bool.eq_false_iff]
  intro h
  obtain ⟨k, hk, hd⟩ := hl.defs x (List.contains_iff_mem.mp h)
  exact hx k hk hd

theorem addModule_adds {m : String} {l c : Option Nat} {s t : S} (hl : Known env P p n s) (hm : Undefined p m) (he : env.cfg.isExcluded m = false)
    (h : addModule env m l c s = .ok t) : m ∈ t.modules := by
  unfold addModule V.rd at h
  simp only [not_userDef hl hm, he, Bool.false_eq_true, if_false] at h
  cases hc : s.modules.contains m with
  | true =>
    simp only [hc, Bool.not_true, V.when, Bool.false_eq_true, if_false, V.skip] at h
    injection h with h
    subst h
    exact List.contains_iff_mem.mp hc
  | false =>
    simp only [hc, Bool.not_false, V.when, if_true] at h
    rw [upd_run h]
    obtain ⟨d, hd⟩ := addLineCol_with { s with modules := s.modules ++ [m] } (.name m) l c
    rw [hd]
    exact List.mem_append_right _ (.head _)

theorem addMember_puts {m : String} {l c : Option Nat} {s t : S} (hm : s.userDefs.contains m = false) (he : env.cfg.isExcluded m = false)
    (hk : (env.tables.mem m).isSome = true) (h : addMember env m l c s = .ok t) : m ∈ t.members := by
  unfold addMember V.rd at h
  simp only [hm, he, hk, Bool.false_eq_true, if_false, V.when, if_true] at h
  rw [upd_run h]
  obtain ⟨d, hd⟩ := addLineCol_with { s with members := s.members ++ [m] } (.name m) l c
  rw [hd]
  exact List.mem_append_right _ (.head _)
theorem addMember_adds {m : String} {l c : Option Nat} {s t : S} (hl : Known env P p n s) (hm : Undefined p m) (he : env.cfg.isExcluded m = false)
    (hk : (env.tables.mem m).isSome = true) (h : addMember env m l c s = .ok t) : m ∈ t.members := addMember_puts (not_userDef hl hm) he hk h

theorem aliasName_of (a : Node) : AliasName a (aliasOf a).1 := by
  unfold aliasOf
  split
  · rename_i x y h; exact .inl ⟨y, h⟩
  · rename_i h; exact .inr ⟨rfl, h⟩

theorem traced_alias (hP : Keeps env p P) {x : String} (a : Node) (hr : ∀ y, (aliasOf a).2 = some y → At env p n (.rename y x) ∧ At env p n (.define y)) :
    Traced env P p n (V.opt (aliasOf a).2 V.skip fun y => addAlias y x) := by
  have hc := closed_traced env P p n hP
  cases h : (aliasOf a).2 with
  | none => exact .skip
  | some y => exact .seq (hc.moduleAs (hr y h).1) (hc.userDef (hr y h).2)
theorem growing_alias (env : Env) (n : Node) {x : String} (o : Option String) : Growing (V.opt o V.skip fun y => addAlias y x) := by
  have hc := closed_growing env n
  exact .optSkip fun y _ => .seq (hc.moduleAs trivial) (hc.userDef trivial)

theorem alias_of {a : Node} {y : String} (h : (aliasOf a).2 = some y) : a.kind = .alias (aliasOf a).1 (some y) := by
  unfold aliasOf at h ⊢
  split
  · rename_i x z hk; rw [hk] at h ⊢; simp only at h ⊢; rw [h]
  · rename_i hk
    split at h
    · rename_i x z hk'; exact absurd hk' (hk x z)
    · cases h

theorem traced_importName (hP : Keeps env p P) (hn : n.kind = .import) {b : Node} (hb : b ∈ n.fields .names) : Traced env P p n (importName env n b) := by
  have hc := closed_traced env P p n hP
  exact .seq (.seq (hc.module _ _ (.inl ⟨hn, b, hb, aliasName_of b⟩)) (hc.member _ _ (.inl ⟨hn, b, hb, aliasName_of b⟩)))
    (traced_alias hP b fun y hy => ⟨⟨b, hb, _, alias_of hy, .inl ⟨hn, rfl⟩⟩, .inr (.inr (.inl ⟨.inl hn, b, hb, _, alias_of hy⟩))⟩)
theorem growing_importName (env : Env) (n b : Node) : Growing (importName env n b) := by
  have hg := closed_growing env n
  exact .seq (.seq (hg.module _ _ trivial) (hg.member _ _ trivial)) (growing_alias env n _)

/-- The names of an `import` statement. -/
theorem import_runs (hP : Keeps env p P) (hn : n.kind = .import) {a : Node} (ha : a ∈ n.fields .names) (hm : n.line ∉ env.noLines) :
    LRuns env P p n (addModule env (aliasOf a).1 (some n.line) (some (n.col + 7))) (visit env n) ∧
    LRuns env P p n (addMember env (aliasOf a).1 (some n.line) (some (n.col + 7))) (visit env n) := by
  rw [visitMk env n]
  unfold visitAlg
  simp only [hn]
  have hc := closed_traced env P p n hP
  have hg := closed_growing env n
  have ht := fun b hb => traced_importName (b := b) hP hn hb
  have hgr : ∀ b ∈ n.fields .names, Growing (importName env n b) := fun b _ => growing_importName env n b
  exact ⟨.gate hm (.each ha (.fst (.fst .here (hg.member _ _ trivial)) (growing_alias env n _)) ht hgr),
    .gate hm (.each ha (.fst (.snd (hc.module _ _ (.inl ⟨hn, a, ha, aliasName_of a⟩)) .here) (growing_alias env n _)) ht hgr)⟩

theorem traced_importFromName (hP : Keeps env p P) {m : String} (hn : n.kind = .importFrom (some m) 0) {b : Node} (hb : b ∈ n.fields .names) :
    Traced env P p n (importFromName env n m b) := by
  have hc := closed_traced env P p n hP
  refine .seq ?_ (traced_alias hP b fun y hy => ⟨⟨b, hb, _, alias_of hy, .inr ⟨m, hn, rfl⟩⟩, .inr (.inr (.inl ⟨.inr ⟨m, hn⟩, b, hb, _, alias_of hy⟩))⟩)
  by_cases hs : (aliasOf b).1 = "*"
  · simp [hs, V.when]; exact .skip
  · have h1 : At env p n (.module (m ++ "." ++ (aliasOf b).1)) := .inr (.inl ⟨m, hn, .inr ⟨b, hb, _, aliasName_of b, hs, rfl⟩⟩)
    have h2 : At env p n (.member (m ++ "." ++ (aliasOf b).1)) := .inr (.inl ⟨m, hn, b, hb, _, aliasName_of b, hs, .inl rfl⟩)
    have h3 : At env p n (.member (aliasOf b).1) := .inr (.inl ⟨m, hn, b, hb, _, aliasName_of b, hs, .inr rfl⟩)
    exact .when (.seq (.seq (.seq (hc.importMem ⟨hn, hs, b, hb, aliasName_of b⟩) (hc.module _ _ h1)) (hc.member _ _ h2)) (hc.member _ _ h3))
theorem growing_importFromName (env : Env) (n : Node) (m : String) (b : Node) : Growing (importFromName env n m b) := by
  have hg := closed_growing env n
  exact .seq (.when (.seq (.seq (.seq (hg.importMem trivial) (hg.module _ _ trivial)) (hg.member _ _ trivial)) (hg.member _ _ trivial)))
      (growing_alias env n _)

/-- The names of a `from m import ..` statement. -/
theorem importFrom_runs (hP : Keeps env p P) {m : String} (hn : n.kind = .importFrom (some m) 0) (hm : n.line ∉ env.noLines) :
    LRuns env P p n (addModule env m (some n.line) (some (n.col + 5))) (visit env n) ∧
    ∀ a ∈ n.fields .names, (aliasOf a).1 ≠ "*" →
      LRuns env P p n (addModule env (m ++ "." ++ (aliasOf a).1) (some n.line) (some (n.col + 5))) (visit env n) ∧
      LRuns env P p n (addMember env (m ++ "." ++ (aliasOf a).1) (some n.line) (some (n.col + 5))) (visit env n) ∧
      LRuns env P p n (addMember env (aliasOf a).1 (some n.line) (some (n.col + 5))) (visit env n) := by
  rw [visitMk env n]
  unfold visitAlg
  simp only [hn]
  have hc := closed_traced env P p n hP
  have hg := closed_growing env n
  have h0 : At env p n (.module m) := .inr (.inl ⟨m, hn, .inl rfl⟩)
  have h1 : ∀ b ∈ n.fields .names, (aliasOf b).1 ≠ "*" → At env p n (.module (m ++ "." ++ (aliasOf b).1)) :=
    fun b hb hs => .inr (.inl ⟨m, hn, .inr ⟨b, hb, _, aliasName_of b, hs, rfl⟩⟩)
  have h5 : ∀ b ∈ n.fields .names, (aliasOf b).1 ≠ "*" → Traced env P p n (upd fun s => { s with importMemMod := Dict.set s.importMemMod (aliasOf b).1 m }) :=
    fun b hb hs => hc.importMem ⟨hn, hs, b, hb, aliasName_of b⟩
  have ht := fun b hb => traced_importFromName (b := b) hP hn hb
  have hgr : ∀ b ∈ n.fields .names, Growing (importFromName env n m b) := fun b _ => growing_importFromName env n m b
  have hl0 : decide ((0 : Nat) = 0) = true := rfl
  have h6 : ∀ b ∈ n.fields .names, (aliasOf b).1 ≠ "*" → At env p n (.member (m ++ "." ++ (aliasOf b).1)) :=
    fun b hb hs => .inr (.inl ⟨m, hn, b, hb, _, aliasName_of b, hs, .inl rfl⟩)
  refine ⟨.when hl0 (.gate hm (.fst .here (.each hgr))), fun a ha hs => ⟨?_, ?_, ?_⟩⟩
  · refine .when hl0 (.gate hm (.snd (hc.module _ _ h0) (.each ha (.fst (.when (decide_eq_true hs) ?_) (growing_alias env n _)) ht hgr)))
    exact .fst (.fst (.snd (h5 a ha hs) .here) (hg.member _ _ trivial)) (hg.member _ _ trivial)
  · refine .when hl0 (.gate hm (.snd (hc.module _ _ h0) (.each ha (.fst (.when (decide_eq_true hs) ?_) (growing_alias env n _)) ht hgr)))
    exact .fst (.snd (.seq (h5 a ha hs) (hc.module _ _ (h1 a ha hs))) .here) (hg.member _ _ trivial)
  · refine .when hl0 (.gate hm (.snd (hc.module _ _ h0) (.each ha (.fst (.when (decide_eq_true hs) ?_) (growing_alias env n _)) ht hgr)))
    exact .snd (.seq (.seq (h5 a ha hs) (hc.module _ _ (h1 a ha hs))) (hc.member _ _ (h6 a ha hs))) .here

/-- A call of a name. -/
theorem call_runs (hP : Keeps env p P) {f : String} (hn : CallsName n f) (hm : n.line ∉ env.noLines) :
    LRuns env P p n (addMember env f (some n.line) (some n.col)) (visit env n) := by
  obtain ⟨hk, hf⟩ := hn
  obtain ⟨e, he, hx⟩ := Option.bind_eq_some_iff.mp hf
  obtain ⟨c, hc⟩ := Acting.nameId_iff hx
  have hg := closed_growing env n
  have hA : ∀ ev, EmitsIn env (fun _ => True) n ev → (fun _ => True) ev := fun _ _ => trivial
  rw [visitMk env n]
  unfold visitAlg
  simp only [hk]
  rw [Acting.visitCall_name env _ he hc]
  refine .gate hm (.fst (fun s t hl h => ?_) growing_pop)
  obtain ⟨u, h1, h2⟩ := seq_run h
  have h1 := upd_run h1
  subst h1
  refine LRuns.fst (.fst (.fst (.fst .here ?_) ?_) ?_) ?_ _ t (learnt_push hl ⟨s, hl.toLearnt, hk, e, he, .inl ⟨c, hc⟩⟩) h2
  · exact growing_callCodecs _
  · exact hg.callSpecial hA ⟨hk, hf⟩
  · exact hg.checkUnpacking hA
  · exact gen_growing env n

/-! ### Attributes -/

theorem growing_attrNameRes (env : Env) (n : Node) (full : List (Option String)) (line : Nat) : Growing (attrNameRes env full line) := by
  have hc := closed_growing env n
  refine .rd fun s => .optSkip fun res _ => .seq (.opt (hc.member _ _ trivial) fun _ _ => hc.member _ _ trivial) ?_
  unfold attrTwoTier
  split
  · exact .optSkip fun _ _ => hc.member _ _ trivial
  · exact .skip

theorem addModule_prefix {m : String} {l c : Option Nat} {s t : S} (h : addModule env m l c s = .ok t) : s.modules <+: t.modules := by
  unfold addModule V.rd at h
  dsimp only at h
  split at h
  · obtain ⟨o, rfl⟩ := verbosePrint_run h; exact List.prefix_refl _
  · split at h
    · obtain ⟨o, rfl⟩ := verbosePrint_run h; exact List.prefix_refl _
    · unfold V.when at h
      split at h
      · rw [upd_run h]
        obtain ⟨d, hd⟩ := addLineCol_with { s with modules := s.modules ++ [m] } (.name m) l c
        rw [hd]
        exact List.prefix_append _ _
      · injection h with h; subst h; exact List.prefix_refl _
theorem addMember_prefix {m : String} {l c : Option Nat} {s t : S} (h : addMember env m l c s = .ok t) : s.modules <+: t.modules := by
  unfold addMember V.rd at h
  dsimp only at h
  split at h
  · obtain ⟨o, rfl⟩ := verbosePrint_run h; exact List.prefix_refl _
  · split at h
    · obtain ⟨o, rfl⟩ := verbosePrint_run h; exact List.prefix_refl _
    · unfold V.when at h
      split at h
      · rw [upd_run h]
        obtain ⟨d, hd⟩ := addLineCol_with { s with members := s.members ++ [m] } (.name m) l c
        rw [hd]
        exact List.prefix_refl _
      · injection h with h; subst h; exact List.prefix_refl _
theorem attrModule_prefix {full : List (Option String)} {dot m : String} {line : Nat} {s t : S} (h : attrModule env full dot line m s = .ok t) :
    s.modules <+: t.modules := by
  unfold attrModule V.rd at h
  dsimp only at h
  split at h
  · exact addModule_prefix h
  · cases hx : (full.head?.getD none).bind (Dict.get? s.importMemMod) with
    | none =>
      rw [hx] at h
      injection h with h; subst h; exact List.prefix_refl _
    | some x =>
      rw [hx] at h
      exact addMember_prefix h

/-- The loop looks at every module. -/
theorem attrModules_at (hP : Keeps env p P) {a : String} (hn : n.kind = .attribute a) {s0 : S} (hs0 : Known env P p n s0) {full : List (Option String)}
    (hfull : attributeName s0.moduleAs n = .ok full) {line j : Nat} {m : String} : ∀ {k i : Nat} {s t : S}, i ≤ j → j < i + k → s.modules[j]? = some m →
    Known env P p n s → attrModules env full (dotted full) line k i s = .ok t →
    ∃ u v, Known env P p n u ∧ attrModule env full (dotted full) line m u = .ok v ∧ More v t
  | 0, i, s, t, h1, h2, _, _, _ => by omega
  | k + 1, i, s, t, h1, h2, hj, hl, h => by
    have hc := closed_traced env P p n hP
    have hA : ∀ ev, EmitsIn env (Known env P p n) n ev → At env p n ev := fun _ h => emitsIn_mono (fun _ h => h.toLearnt) h
    replace h : V.opt s.modules[i]? V.skip (fun m => attrModule env full (dotted full) line m ;; attrModules env full (dotted full) line k (i + 1)) s = .ok t := h
    cases hi : s.modules[i]? with
    | none =>
      have := List.getElem?_eq_none_iff.mp hi
      have hj' := (List.getElem?_eq_some_iff.mp hj).1
      omega
    | some m' =>
      rw [hi] at h
      obtain ⟨u, h3, h4⟩ := seq_run h
      by_cases hij : i = j
      · subst hij
        rw [hi] at hj
        injection hj with hj
        subst hj
        exact ⟨s, u, hl, h3, Rel.more.grow (growing_attrModules n full _ _ _ _ _ _ h4)⟩
      · have ht : Traced env P p n (attrModule env full (dotted full) line m') := by
          refine .rd fun s' hs' => ?_
          split
          · rename_i hx
            exact hc.module _ _ (hA _ (.inr (.inr ⟨⟨a, hn⟩, s0, s, full, m', hs0, hl, reads_of hfull, (fullText_eq _).symm, hx, List.mem_of_getElem? hi⟩)))
          cases hmod : (full.head?.getD none).bind (Dict.get? s'.importMemMod) with
          | none => exact hc.skip
          | some mod =>
          refine hc.member _ _ ?_
          obtain ⟨x, hx, hmod⟩ := Option.bind_eq_some_iff.mp hmod
          exact hA _ (.inr (.inr (.inr (.inl ⟨⟨a, hn⟩, s0, s', full, hs0, hs', reads_of hfull, .inr ⟨x, Acting.head_of_getD hx, .inl ⟨mod, hmod, (fullText_eq _).symm⟩⟩⟩))))
        have hj' : u.modules[j]? = some m := by
          obtain ⟨r, hr⟩ := attrModule_prefix h3
          rw [← hr, List.getElem?_append_left (List.getElem?_eq_some_iff.mp hj).1]
          exact hj
        exact attrModules_at hP hn hs0 hfull (by omega) (by omega) hj' (ht s u hl h3).1 h4

/-- What happens at an attribute that has a name. -/
theorem attr_runs (hP : Keeps env p P) {a : String} (hn : n.kind = .attribute a) {s t : S} (hl : Known env P p n s) (h : visit env n s = .ok t)
    {full : List (Option String)} (hfull : attributeName s.moduleAs n = .ok full) (hne : full ≠ []) :
    (∃ u v, Known env P p n u ∧ addMember env (dotted full) (some n.line) none u = .ok v ∧ More v t) ∧
    (∀ m ∈ s.modules, ∃ u v, Known env P p n u ∧ attrModule env full (dotted full) n.line m u = .ok v ∧ More v t) ∧
    (∃ u v, Known env P p n u ∧ attrNameRes env full n.line u = .ok v ∧ More v t) := by
  have hc := closed_traced env P p n hP
  have hA : ∀ ev, EmitsIn env (Known env P p n) n ev → At env p n ev := fun _ h => emitsIn_mono (fun _ h => h.toLearnt) h
  rw [visitMk env n] at h
  unfold visitAlg at h
  simp only [hn] at h
  unfold visitAttribute at h
  obtain ⟨w, h1, h2⟩ := seq_run h
  replace h1 : V.lift (attributeName s.moduleAs n) (fun full => _) s = .ok w := h1
  rw [hfull] at h1
  replace h1 : V.when (!full.isEmpty) _ s = .ok w := h1
  rw [show (!full.isEmpty) = true by cases full <;> simp_all] at h1
  replace h1 : (attrModules env full (dotted full) n.line (s.modules.length + 2) 0 ;; addMember env (dotted full) (some n.line) ;;
    attrNameRes env full n.line) s = .ok w := h1
  have hgen : More w t := Rel.more.grow (gen_growing env n _ _ h2)
  have hmods : Traced env P p n (attrModules env full (dotted full) n.line (s.modules.length + 2) 0) := hc.attrModules hA hn hl hfull _ _
  have hmem : Traced env P p n (addMember env (dotted full) (some n.line)) :=
    hc.member _ _ (.inr (.inr (.inr (.inl ⟨⟨a, hn⟩, s, s, full, hl.toLearnt, hl.toLearnt, reads_of hfull, .inl (fullText_eq _).symm⟩))))
  have hr1 : LRuns env P p n (addMember env (dotted full) (some n.line) none) (attrModules env full (dotted full) n.line (s.modules.length + 2) 0 ;;
      addMember env (dotted full) (some n.line) ;; attrNameRes env full n.line) :=
    .fst (.snd hmods .here) (growing_attrNameRes env n _ _)
  have hr2 : LRuns env P p n (attrNameRes env full n.line) (attrModules env full (dotted full) n.line (s.modules.length + 2) 0 ;;
      addMember env (dotted full) (some n.line) ;; attrNameRes env full n.line) :=
    .snd (.seq hmods hmem) .here
  refine ⟨?_, fun m hm => ?_, ?_⟩
  · obtain ⟨u, v, hu, hv, hm⟩ := hr1 s w hl h1
    exact ⟨u, v, hu, hv, Rel.more.trans hm hgen⟩
  · obtain ⟨j, hj, hjm⟩ := List.getElem_of_mem hm
    have hj' : s.modules[j]? = some m := List.getElem?_eq_some_iff.mpr ⟨hj, hjm⟩
    obtain ⟨x, h3, h4⟩ := seq_run h1
    obtain ⟨y, h5, h6⟩ := seq_run h3
    obtain ⟨u, v, hu, hv, hm⟩ := attrModules_at hP hn hl hfull (Nat.zero_le _) (by omega) hj' hl h5
    have h7 : More y x := Rel.more.grow ((closed_growing env n).member _ _ trivial _ _ h6)
    have h8 : More x w := Rel.more.grow (growing_attrNameRes env n _ _ _ _ h4)
    exact ⟨u, v, hu, hv, Rel.more.trans hm (Rel.more.trans h7 (Rel.more.trans h8 hgen))⟩
  · obtain ⟨u, v, hu, hv, hm⟩ := hr2 s w hl h1
    exact ⟨u, v, hu, hv, Rel.more.trans hm hgen⟩

/-! ### Facts -/

/-- Afterwards, the fact is known. -/
def Tells (env : Env) (P : Facts) (p n : Node) (v : V) : Prop := ∀ s t, Learnt env p n s → v s = .ok t → Known env P p n t

theorem learnt_known {s : S} (h : Learnt env p n s) : Known env Anything p n s := { h with known := trivial }
theorem Traced.learnt {v : V} (h : Traced env Anything p n v) {s t : S} (hl : Learnt env p n s) (hv : v s = .ok t) : Learnt env p n t :=
  (h s t (learnt_known hl) hv).1.toLearnt

namespace Tells
theorem fst {a b : V} (ha : Tells env P p n a) (hb : Traced env P p n b) : Tells env P p n (a ;; b) := fun s t hl h => by
  obtain ⟨u, h1, h2⟩ := seq_run h
  exact (hb u t (ha s u hl h1) h2).1
theorem snd {a b : V} (ha : Traced env Anything p n a) (hb : Tells env P p n b) : Tells env P p n (a ;; b) := fun s t hl h => by
  obtain ⟨u, h1, h2⟩ := seq_run h
  exact hb u t (ha.learnt hl h1) h2
theorem gate {v : V} (hn : n.line ∉ env.noLines) (hv : Tells env P p n v) : Tells env P p n (gate env n v) := by
  unfold Vermin.gate
  rw [if_neg (by simpa [Env.isNoLine] using hn)]
  exact hv
theorem each {α : Type} {f : α → V} {l : List α} {x : α} (hx : x ∈ l) (hf : Tells env P p n (f x)) (h0 : ∀ y ∈ l, Traced env Anything p n (f y))
    (h1 : ∀ y ∈ l, Traced env P p n (f y)) : Tells env P p n (V.each f l) := by
  induction l with
  | nil => cases hx
  | cons y l ih =>
    rcases List.mem_cons.mp hx with rfl | hx
    · exact .fst hf ((closed_each fun z hz => h1 z (.tail _ hz)))
    · exact .snd (h0 y (.head _)) (ih hx (fun z hz => h0 z (.tail _ hz)) fun z hz => h1 z (.tail _ hz))
where closed_each {f : α → V} : ∀ {l : List α}, (∀ y ∈ l, Traced env P p n (f y)) → Traced env P p n (V.each f l)
  | [], _ => .skip
  | y :: l, h => .seq (h y (.head _)) (closed_each fun z hz => h z (.tail _ hz))
end Tells

theorem aliasOf_eq {a : Node} {x : String} {y : Option String} (h : a.kind = .alias x y) : aliasOf a = (x, y) := by
  unfold aliasOf; rw [h]

/-- An import by another name tells what that name is. -/
theorem tells_alias {a : Node} {m y : String} (hP : Keeps env p P) (hset : ∀ ms os vs ts, P (Dict.set ms y m) os vs ts) (ha : (aliasOf a).2 = some y)
    (hr : At env p n (.rename y m)) (hd : At env p n (.define y)) : Tells env P p n (V.opt (aliasOf a).2 V.skip fun y => addAlias y m) := by
  rw [ha]
  show Tells env P p n (upd (fun s => { s with moduleAs := Dict.set s.moduleAs y m }) ;; addUserDef y)
  refine .fst (fun s t hl h => ?_) ((closed_traced env P p n hP).userDef hd)
  rw [upd_run h]
  exact { learnt_rename (keeps_anything env p) (learnt_known hl) hr with known := hset _ _ _ _ }

theorem tells_rename {m y : String} (hP : Keeps env p P) (hset : ∀ ms os vs ts, P (Dict.set ms y m) os vs ts) (hi : ImportsAs n m y) (hm : n.line ∉ env.noLines) :
    Tells env P p n (visit env n) := by
  obtain ⟨a, ha, k, hak, hi⟩ := hi
  have hal := aliasOf_eq hak
  have h0 := closed_traced env Anything p n (keeps_anything env p)
  rw [visitMk env n]
  unfold visitAlg
  rcases hi with ⟨hn, rfl⟩ | ⟨s, hn, rfl⟩
  · simp only [hn]
    refine .gate hm (.each ha (.snd (.seq (h0.module _ _ ?_) (h0.member _ _ ?_)) ?_) (fun b hb => traced_importName (keeps_anything env p) hn hb)
      fun b hb => traced_importName hP hn hb)
    · exact .inl ⟨hn, a, ha, aliasName_of a⟩
    · exact .inl ⟨hn, a, ha, aliasName_of a⟩
    · have := tells_alias (a := a) (m := m) hP hset (by rw [hal]) ⟨a, ha, m, hak, .inl ⟨hn, rfl⟩⟩ (.inr (.inr (.inl ⟨.inl hn, a, ha, _, hak⟩)))
      rw [hal] at this ⊢
      exact this
  · simp only [hn]
    have hl0 : decide ((0 : Nat) = 0) = true := rfl
    show Tells env P p n (V.when (decide ((0 : Nat) = 0)) _)
    rw [hl0]
    refine .gate hm (.snd (h0.module _ _ (.inr (.inl ⟨s, hn, .inl rfl⟩))) (.each ha (.snd ?_ ?_) (fun b hb => traced_importFromName (keeps_anything env p) hn hb)
      fun b hb => traced_importFromName hP hn hb))
    · by_cases hs : (aliasOf a).1 = "*"
      · simp [hs, V.when]; exact .skip
      · exact .when (.seq (.seq (.seq (h0.importMem ⟨hn, hs, a, ha, aliasName_of a⟩) (h0.module _ _ (.inr (.inl ⟨s, hn, .inr ⟨a, ha, _, aliasName_of a, hs, rfl⟩⟩))))
          (h0.member _ _ (.inr (.inl ⟨s, hn, a, ha, _, aliasName_of a, hs, .inl rfl⟩)))) (h0.member _ _ (.inr (.inl ⟨s, hn, a, ha, _, aliasName_of a, hs, .inr rfl⟩))))
    · have := tells_alias (a := a) (m := s ++ "." ++ k) hP hset (by rw [hal]) ⟨a, ha, k, hak, .inr ⟨s, hn, rfl⟩⟩ (.inr (.inr (.inl ⟨.inr ⟨s, hn⟩, a, ha, _, hak⟩)))
      rw [hal] at this ⊢
      exact this

/-- An import from a module tells where the name is from. -/
theorem tells_origin {m x : String} (hP : Keeps env p P) (hset : ∀ ms os vs ts, P ms (Dict.set os x m) vs ts) (hi : ImportsFrom n m x) (hx : x ≠ "*")
    (hm : n.line ∉ env.noLines) : Tells env P p n (visit env n) := by
  obtain ⟨hn, a, ha, y, hak⟩ := hi
  have hal := aliasOf_eq hak
  have h1 : (aliasOf a).1 = x := by rw [hal]
  have hs : (aliasOf a).1 ≠ "*" := by rw [h1]; exact hx
  have h0 := closed_traced env Anything p n (keeps_anything env p)
  have hc := closed_traced env P p n hP
  rw [visitMk env n]
  unfold visitAlg
  simp only [hn]
  have hl0 : decide ((0 : Nat) = 0) = true := rfl
  show Tells env P p n (V.when (decide ((0 : Nat) = 0)) _)
  rw [hl0]
  refine .gate hm (.snd (h0.module _ _ (.inr (.inl ⟨m, hn, .inl rfl⟩))) (.each ha ?_ (fun b hb => traced_importFromName (keeps_anything env p) hn hb)
    fun b hb => traced_importFromName hP hn hb))
  refine .fst ?_ (traced_alias hP a fun y hy => ⟨⟨a, ha, _, alias_of hy, .inr ⟨m, hn, rfl⟩⟩, .inr (.inr (.inl ⟨.inr ⟨m, hn⟩, a, ha, _, alias_of hy⟩))⟩)
  rw [show decide ((aliasOf a).1 ≠ "*") = true by rw [h1]; exact decide_eq_true hx]
  refine .fst (.fst (.fst (fun s t hl h => ?_) (hc.module _ _ (.inr (.inl ⟨m, hn, .inr ⟨a, ha, _, aliasName_of a, hs, rfl⟩⟩))))
    (hc.member _ _ (.inr (.inl ⟨m, hn, a, ha, _, aliasName_of a, hs, .inl rfl⟩)))) (hc.member _ _ (.inr (.inl ⟨m, hn, a, ha, _, aliasName_of a, hs, .inr rfl⟩)))
  rw [upd_run h]
  have hr : At env p n (.origin (aliasOf a).1 m) := ⟨hn, by rw [h1]; exact hx, a, ha, aliasName_of a⟩
  exact { learnt_origin (keeps_anything env p) (learnt_known hl) hr with known := by rw [h1]; exact hset _ _ _ _ }

/-! ### Values of variables -/

theorem unrenamed {a : String} (ha : ∀ i m, In i p → ¬ ImportsAs i m a) {s : S} (hl : RenamesFrom env p s) : resolveModuleName s.moduleAs a = a := by
  unfold resolveModuleName
  cases hg : Dict.get? s.moduleAs a with
  | none => rfl
  | some m =>
    obtain ⟨i, hi, hr⟩ := hl a m hg
    exact absurd hr (ha i m hi)
theorem denotes_assigned {v : Node} {y : String} (h : Denotes p v y) {s : S} (hl : RenamesFrom env p s) : assignedName s.moduleAs v = .ok (.value y) := by
  unfold assignedName
  cases h with
  | call h =>
    obtain ⟨hk, hf⟩ := h
    obtain ⟨f, hf, hx⟩ := Option.bind_eq_some_iff.mp hf
    obtain ⟨c, hc⟩ := Acting.nameId_iff hx
    simp only [hk, assignedCall, hf, hc]
  | callAttr hk hf hc ha =>
    obtain ⟨b, hb⟩ := chain_attr hc
    simp only [hk, assignedCall, hf, hb, assignedAttr, chain_dotted hc, unrenamed ha hl]
  | attr hc ha =>
    obtain ⟨b, hb⟩ := chain_attr hc
    simp only [hb, assignedAttr, chain_dotted hc, unrenamed ha hl]
  | _ h => simp only [h, assignedConst]

theorem chain_reads {ms : Table} {n : Node} {a : String} {bs : List String} {full : List (Option String)} (h : Chain n a bs) (hr : Reads ms n full) :
    fullText full = dottedText (resolveModuleName ms a) bs := by
  obtain ⟨b, hb⟩ := chain_attr h
  rw [hr.spelt b .name a bs hb h.spelt, ← fullText_text]
  rfl
theorem callsName_iff {v : Node} {x : String} (h : CallsName v x) : v.kind = .call ∧ ∃ e c, v.field .func = some e ∧ e.kind = .name x c := by
  obtain ⟨hk, h⟩ := h
  obtain ⟨e, he, hx⟩ := Option.bind_eq_some_iff.mp h
  obtain ⟨c, hc⟩ := Acting.nameId_iff hx
  exact ⟨hk, e, c, he, hc⟩

/-- The name of the value of an expression is the one it has. -/
theorem denotes_value {v : Node} {y z : String} (h : Denotes p v y) {s : S} (hl : RenamesFrom env p s) (hv : ValueName s.moduleAs v z) : z = y := by
  have chain : ∀ {e : Node} {a : String} {bs : List String} {full : List (Option String)}, Chain e a bs → (∀ k m, In k p → ¬ ImportsAs k m a) →
      Reads s.moduleAs e full → fullText full = dottedText a bs := fun hc ha hr => by rw [chain_reads hc hr, unrenamed ha hl]
  rcases hv with ⟨hk, e, he, ⟨c, hc⟩ | ⟨⟨a, ha⟩, full, hr, rfl⟩⟩ | ⟨⟨a, ha⟩, full, hr, rfl⟩ | ⟨⟨l, h1⟩, rfl⟩ | ⟨h1, rfl⟩ | ⟨⟨c, h1⟩, rfl⟩ | ⟨⟨c, h1⟩, rfl⟩ | ⟨⟨c, h1⟩, rfl⟩ |
    ⟨⟨c, h1⟩, rfl⟩ | ⟨⟨c, h1⟩, rfl⟩ | ⟨⟨c, h1⟩, rfl⟩
  · cases h with
    | call h =>
      obtain ⟨_, e', c', he', hc'⟩ := callsName_iff h
      rw [he] at he'; injection he' with he'; subst he'
      rw [hc] at hc'; cases hc'; rfl
    | callAttr _ hf hch _ =>
      rw [he] at hf; injection hf with hf; subst hf
      obtain ⟨b, hb⟩ := chain_attr hch
      rw [hc] at hb; cases hb
    | attr hch _ => obtain ⟨b, hb⟩ := chain_attr hch; rw [hk] at hb; cases hb
    | _ h => rw [hk] at h; cases h
  · cases h with
    | call h =>
      obtain ⟨_, e', c', he', hc'⟩ := callsName_iff h
      rw [he] at he'; injection he' with he'; subst he'
      rw [ha] at hc'; cases hc'
    | callAttr _ hf hch h1 =>
      rw [he] at hf; injection hf with hf; subst hf
      exact chain hch h1 hr
    | attr hch _ => obtain ⟨b, hb⟩ := chain_attr hch; rw [hk] at hb; cases hb
    | _ h => rw [hk] at h; cases h
  · cases h with
    | call h => rw [h.1] at ha; cases ha
    | callAttr h => rw [h] at ha; cases ha
    | attr hch h1 => exact chain hch h1 hr
    | _ h => rw [ha] at h; cases h
  all_goals
    cases h with
    | call h => rw [h.1] at h1; cases h1
    | callAttr h => rw [h] at h1; cases h1
    | attr hch _ => obtain ⟨b, hb⟩ := chain_attr hch; rw [h1] at hb; cases hb
    | _ h => first | rfl | (rw [h1] at h; cases h)
theorem valueName_notName {ms : Table} {v : Node} {y z : String} {c : Ctx} (hv : ValueName ms v y) : v.kind ≠ .name z c := fun h => by
  rcases hv with ⟨hk, _⟩ | ⟨⟨a, ha⟩, _⟩ | ⟨⟨l, h1⟩, rfl⟩ | ⟨h1, rfl⟩ | ⟨⟨c, h1⟩, rfl⟩ | ⟨⟨c, h1⟩, rfl⟩ | ⟨⟨c, h1⟩, rfl⟩ | ⟨⟨c, h1⟩, rfl⟩ | ⟨⟨c, h1⟩, rfl⟩ | ⟨⟨c, h1⟩, rfl⟩
  · rw [hk] at h; cases h
  · rw [ha] at h; cases h
  all_goals rw [h1] at h; cases h

/-- A variable that is always given the same kind of value. -/
theorem keeps_value {x y : String} (h : Always p x y) : Keeps env p (fun _ _ vs _ => Dict.get? vs x = some y) := by
  refine ⟨fun _ _ _ _ _ _ _ _ _ h => h, fun _ _ _ _ _ _ _ _ _ h => h, fun k x' y' _ _ vs _ hk hr hg => ?_, fun _ _ _ _ _ _ _ _ _ h => h⟩
  rw [Dict.get?_set]
  split
  · rename_i hxy
    subst hxy
    rcases hr with ⟨v, s, ha, hs, hv⟩ | ⟨hf, _, ⟨t, c, ht, hc⟩, _⟩
    · rcases h.1 k v hk ha with h1 | ⟨_, z, c, h1⟩
      · rw [denotes_value h1 hs hv]
      · exact absurd h1 (valueName_notName hv)
    · exact absurd hc (h.2 k t c hk hf ht)
  · exact hg

theorem Traced.optSkip {α : Type} {x : Option α} {k : α → V} (h : ∀ y, x = some y → Traced env P p n (k y)) : Traced env P p n (V.opt x V.skip k) := by
  cases x with
  | none => exact .skip
  | some y => exact h y rfl
theorem Traced.alt {c : Bool} {a b : V} (ha : Traced env P p n a) (hb : Traced env P p n b) : Traced env P p n (V.alt c a b) := by
  cases c
  · exact hb
  · exact ha
theorem Traced.altOr {c : Bool} {a b : V} (ha : Traced env P p n a) (hb : c = false → Traced env P p n b) : Traced env P p n (V.alt c a b) := by
  cases c
  · exact hb rfl
  · exact ha
theorem traced_annKind (a : Node) : Traced env P p n (annKind env n a) := by
  unfold annKind
  split
  · exact .seq (.flag _) (.print _ _ _ _ _ _)
  · exact .when (.seq (.flag _) (.print _ _ _ _ _ _))

/-- What an assignment tells of its variables is known after it. -/
theorem tells_assignment {x : String} (hP : Keeps env p P) {v : Node} (ha : AssignsTo n v x) (hm : n.line ∉ env.noLines)
    (key : Tells env P p n (addNameResAssign n)) : Tells env P p n (visit env n) := by
  have h0 := closed_traced env Anything p n (keeps_anything env p)
  have hc := closed_traced env P p n hP
  have hA : ∀ ev, EmitsIn env (Known env P p n) n ev → At env p n ev := fun _ h => emitsIn_mono (fun _ h => h.toLearnt) h
  have hA0 : ∀ ev, EmitsIn env (Known env Anything p n) n ev → At env p n ev := fun _ h => emitsIn_mono (fun _ h => h.toLearnt) h
  have hkids := hc.generic n (kids_traced env P p n hP)
  have aug : n.kind = .augAssign → Traced env P p n (V.when (decide (operator n = some .bitOr))
      (V.opt (n.field .target) V.skip fun t => V.opt (n.field .value) V.skip fun v => augBitOr env n t v)) := fun hn => by
    by_cases ho : operator n = some .bitOr
    · exact .when (.optSkip fun t ht => .optSkip fun v hv => hc.augBitOr hA hn (operator_iff ho) ht hv)
    · simp only [decide_eq_false ho]; exact .skip
  rw [visitMk env n]
  unfold visitAlg
  rcases ha.1 with hn | hn | hn <;> simp only [hn]
  · exact .gate hm (.fst (.snd (h0.each (f' := addTargets) fun t ht => h0.addTargets fun x hx => .inr (.inr (.inr (.inl ⟨hn, t, ht, hx⟩)))) key) hkids)
  · exact .gate hm (.fst (.fst (.snd (h0.singleTarget hA0 (.inl hn)) key)
      (aug hn)) hkids)
  · exact .gate hm (.fst (.fst (.fst (.fst (.snd (h0.singleTarget hA0 (.inr (.inl hn))) key)
      (.altOr hkids fun he => .flag _ fun _ => ⟨⟨he, .inl hn⟩, fun hk => by rw [hn] at hk; cases hk⟩)) (.flag _))
      (.seq (.flag _) (.print _ _ _ _ _ _))) (.optSkip fun a _ => traced_annKind a))

/-- Assigning a value to a variable tells its kind. -/
theorem tells_assigned {x y : String} (hP : Keeps env p P) (hset : ∀ ms os vs ts, P ms os (Dict.set vs x y) ts) {v : Node} (ha : AssignsTo n v x) (hd : Denotes p v y) :
    Tells env P p n (addNameResAssign n) := by
  have h0 := closed_traced env Anything p n (keeps_anything env p)
  have hc := closed_traced env P p n hP
  obtain ⟨hn, hv, t, ht, htf, c, htx⟩ := ha
  unfold addNameResAssign
  rw [hv]
  intro s u hl h
  replace h : V.lift (assignedName s.moduleAs v) _ s = .ok u := h
  rw [denotes_assigned hd hl.renames] at h
  replace h : V.each (bindTarget (.value y)) (n.kids.filter fun k => decide (k.fld = .targets) || decide (k.fld = .target)) s = .ok u := h
  have hval : ∀ t' ∈ n.kids.filter (fun k => decide (k.fld = .targets) || decide (k.fld = .target)), ∀ x', (∃ c, t'.kind = .name x' c) → At env p n (.value x' y) := by
    rintro t' ht' x' ⟨c', hc'⟩
    obtain ⟨h1, h2⟩ := List.mem_filter.mp ht'
    have hvn : ValueName s.moduleAs v y := assignedName_value (denotes_assigned hd hl.renames)
    exact .inl ⟨v, s, ⟨hn, hv, t', h1, by simpa using h2, c', hc'⟩, hl, hvn⟩
  have htm : t ∈ n.kids.filter (fun k => decide (k.fld = .targets) || decide (k.fld = .target)) :=
    List.mem_filter.mpr ⟨ht, by rcases htf with h | h <;> simp [h]⟩
  refine Tells.each (P := P) htm ?_ (fun t' ht' => ?_) (fun t' ht' => ?_) s u hl h
  · unfold bindTarget
    rw [show t.nameId = some x by unfold Node.nameId; rw [htx]]
    intro s' t' hl' h'
    replace h' : addNameRes x y s' = .ok t' := h'
    rw [upd_run h']
    exact { learnt_value (keeps_anything env p) (learnt_known hl') (hval t htm x ⟨c, htx⟩) with known := hset _ _ _ _ }
  · exact h0.bindTarget (fun x' y' hy hx' => by cases hy; exact hval t' ht' x' hx') fun _ _ hy => by cases hy
  · exact hc.bindTarget (fun x' y' hy hx' => by cases hy; exact hval t' ht' x' hx') fun _ _ hy => by cases hy

/-- Assigning a type to a variable tells it. -/
theorem tells_typed {x y : String} (hP : Keeps env p P) (hset : ∀ ms os vs ts, P ms os vs (Dict.set ts x (addSet ((Dict.get? ts x).getD []) y))) {v : Node}
    (ha : AssignsTo n v x) (hd : TypeName v y) : Tells env P p n (addNameResAssign n) := by
  have h0 := closed_traced env Anything p n (keeps_anything env p)
  have hc := closed_traced env P p n hP
  obtain ⟨hn, hv, t, ht, htf, c, htx⟩ := ha
  unfold addNameResAssign
  rw [hv]
  intro s u hl h
  replace h : V.lift (assignedName s.moduleAs v) _ s = .ok u := h
  have hasg : assignedName s.moduleAs v = .ok (.type y) := by
    unfold assignedName
    rcases hd with ⟨c, hc⟩ | ⟨hc, rfl⟩
    · simp only [hc]
    · simp only [hc, assignedConst]
  rw [hasg] at h
  replace h : V.each (bindTarget (.type y)) (n.kids.filter fun k => decide (k.fld = .targets) || decide (k.fld = .target)) s = .ok u := h
  have hval : ∀ t' ∈ n.kids.filter (fun k => decide (k.fld = .targets) || decide (k.fld = .target)), ∀ x', (∃ c, t'.kind = .name x' c) → At env p n (.type x' y) := by
    rintro t' ht' x' ⟨c', hc'⟩
    obtain ⟨h1, h2⟩ := List.mem_filter.mp ht'
    exact .inl ⟨v, ⟨hn, hv, t', h1, by simpa using h2, c', hc'⟩, hd⟩
  have htm : t ∈ n.kids.filter (fun k => decide (k.fld = .targets) || decide (k.fld = .target)) :=
    List.mem_filter.mpr ⟨ht, by rcases htf with h | h <;> simp [h]⟩
  refine Tells.each (P := P) htm ?_ (fun t' ht' => ?_) (fun t' ht' => ?_) s u hl h
  · unfold bindTarget
    rw [show t.nameId = some x by unfold Node.nameId; rw [htx]]
    intro s' t' hl' h'
    replace h' : addNameResType x y s' = .ok t' := h'
    rw [upd_run h']
    exact { learnt_type (keeps_anything env p) (learnt_known hl') (hval t htm x ⟨c, htx⟩) with known := hset _ _ _ _ }
  · exact h0.bindTarget (fun _ _ hy => by cases hy) fun x' y' hy hx' => by cases hy; exact hval t' ht' x' hx'
  · exact hc.bindTarget (fun _ _ hy => by cases hy) fun x' y' hy hx' => by cases hy; exact hval t' ht' x' hx'

/-- The definition of a class tells that it is a type. -/
theorem tells_class {x : String} (hP : Keeps env p P) (hset : ∀ ms os vs ts, P ms os vs (Dict.set ts x (addSet ((Dict.get? ts x).getD []) x)))
    (hn : n.kind = .classDef x) (hm : n.line ∉ env.noLines) : Tells env P p n (visit env n) := by
  have h0 := closed_traced env Anything p n (keeps_anything env p)
  have hc := closed_traced env P p n hP
  have hA : ∀ ev, EmitsIn env (Known env P p n) n ev → At env p n ev := fun _ h => emitsIn_mono (fun _ h => h.toLearnt) h
  have hk := kids_traced env P p n hP
  rw [visitMk env n]
  unfold visitAlg
  simp only [hn]
  refine .gate hm (.fst (.fst (.fst (.fst (.snd (h0.userDef (.inr (.inl hn))) fun s t hl h => ?_) (hc.classDecos hA hn)) (hc.metaclassKw hA hn)) (hc.generic n hk)) ?_)
  · replace h : addNameResType x x s = .ok t := h
    rw [upd_run h]
    exact { learnt_type (keeps_anything env p) (learnt_known hl) (.inr ⟨hn, rfl⟩) with known := hset _ _ _ _ }
  · exact hc.eachGvisit hn (hk.filter fun k => decide (k.fld = .body))

/-- An assignment tells the kind of value of a variable. -/
theorem tells_assigns {x y : String} (hP : Keeps env p P) (hset : ∀ ms os vs ts, P ms os (Dict.set vs x y) ts) {v : Node} (ha : AssignsTo n v x) (hd : Denotes p v y)
    (hm : n.line ∉ env.noLines) : Tells env P p n (visit env n) := tells_assignment hP ha hm (tells_assigned hP hset ha hd)

theorem tells_types {x y : String} (hP : Keeps env p P) (hset : ∀ ms os vs ts, P ms os vs (Dict.set ts x (addSet ((Dict.get? ts x).getD []) y))) {v : Node}
    (ha : AssignsTo n v x) (hd : TypeName v y) (hm : n.line ∉ env.noLines) : Tells env P p n (visit env n) :=
  tells_assignment hP ha hm (tells_typed hP hset ha hd)

theorem tells_value {x y : String} (hP : Keeps env p P) (hset : ∀ ms os vs ts, P ms os (Dict.set vs x y) ts) (hn : n.kind = .assign) {v : Node}
    (hv : n.field .value = some v) (hd : Denotes p v y) {t : Node} {c : Ctx} (ht : t ∈ n.fields .targets) (htx : t.kind = .name x c)
    (hm : n.line ∉ env.noLines) : Tells env P p n (visit env n) := by
  obtain ⟨h1, h2⟩ := List.mem_filter.mp ht
  exact tells_assigns hP hset ⟨.inl hn, hv, t, h1, .inl (by simpa using h2), c, htx⟩ hd hm

/-! ### Statements one after the other -/

theorem each_split {α : Type} {f : α → V} {x : α} : ∀ {l₁ l₂ : List α} {s t : S}, V.each f (l₁ ++ x :: l₂) s = .ok t →
    ∃ a b, V.each f l₁ s = .ok a ∧ f x a = .ok b ∧ V.each f l₂ b = .ok t
  | [], l₂, s, t, h => by
    obtain ⟨b, h1, h2⟩ := seq_run h
    exact ⟨s, b, rfl, h1, h2⟩
  | y :: l₁, l₂, s, t, h => by
    obtain ⟨u, h1, h2⟩ := seq_run h
    obtain ⟨a, b, h3, h4, h5⟩ := each_split h2
    exact ⟨a, b, by show V.seq _ _ s = _; unfold V.seq; rw [h1]; exact h3, h4, h5⟩
theorem visitKids_append (env : Env) : ∀ a b : List Node, visitKids env (a ++ b) = visitKids env a ++ visitKids env b
  | [], b => rfl
  | k :: a, b => by
    show _ :: visitKids env (a ++ b) = _ :: (visitKids env a ++ visitKids env b)
    rw [visitKids_append env a b]

theorem traced_each {α : Type} {f : α → V} {l : List α} (h : ∀ y ∈ l, Traced env P p n (f y)) : Traced env P p n (V.each f l) := Tells.each.closed_each h

/-- Visiting children -/
theorem each_known (hP : Keeps env p P) {l : List Node} (hl : ∀ k ∈ l, k ∈ n.kids) : Traced env P p n (V.each Child.visit (visitKids env l)) :=
  traced_each fun c hc => by
    obtain ⟨h1, h2, _⟩ := of_mem_visitKids hc
    rw [h2]
    exact traced_up (hl _ h1) (visit_traced env P p _ hP)
theorem each_growing (l : List Node) : Growing (V.each Child.visit (visitKids env l)) := .each fun c hc => by
  rw [(of_mem_visitKids hc).2.1]
  exact visit_growing env _

end
end Vermin
