import Verif.Lemmas.Records
import Verif.Lemmas.Dotted
import Verif.Lemmas.Spelt
import Verif.Spec.Members
/-
What is certain to be found of modules and members.
-/
namespace Vermin
open Py V Spec

section
variable {env : Env} {P : Facts} {p n : Node} {g : V}

theorem LRuns.scope {v : V} (hv : LRuns env P p n g v) : LRuns env P p n g (inScope v) := fun s t hl h => by
  obtain ⟨u, h1, h2⟩ := seq_run (show (v ;; restoreDefs s.userDefs) s = .ok t from h)
  obtain ⟨a, b, h3, h4, h5⟩ := hv s u hl h1
  refine ⟨a, b, h3, h4, Rel.more.trans h5 ?_⟩
  rw [upd_run h2]
  exact more_defs u _

theorem namesAsMembers_runs (hP : Keeps env p P) {e k : Node} {x : String} (hm : ∀ m x, In m e → IsName m x → At env p n (.member x)) (hk : In k e) (hx : IsName k x) :
    LRuns env P p n (addMember env x (some k.line) (some k.col)) (namesAsMembers env e) := by
  have hc := closed_traced env P p n hP
  have hg := closed_growing env n
  refine .each (walk_mem hk) (.opt (hasName hx) .here) (fun y hy => ?_) fun y _ => .optSkip fun _ _ => hg.member _ _ trivial
  exact .optSkip fun x hx => hc.member _ _ (hm y x (mem_walk hy) (Acting.nameId_iff hx))

/-- The names in `raise` statements -/
theorem raise_runs (hP : Keeps env p P) (hn : n.kind = .raise) (hl : n.line ∉ env.noLines) {e k : Node} {x : String} (he : n.field .exc = some e ∨ n.field .cause = some e)
    (hk : In k e) (hx : IsName k x) : LRuns env P p n (addMember env x (some k.line) (some k.col)) (visit env n) := by
  have hc := closed_traced env P p n hP
  have hg := closed_growing env n
  have hA : ∀ ev, EmitsIn env (fun _ => True) n ev → (fun _ => True) ev := fun _ _ => trivial
  have hm : ∀ e, (n.field .exc = some e ∨ n.field .cause = some e) → ∀ m x, In m e → IsName m x → At env p n (.member x) := fun e he m x h1 h2 =>
    .inr (.inr (.inr (.inr (.inl ⟨hn, e, m, he, h1, h2⟩))))
  have ht0 : Traced env P p n (V.opt (n.field .cause) V.skip (raiseCauseOf env n)) := .optSkip fun c _ =>
    .seq (Traced.seq (.flag _) (.print _ _ _ _ _ _)) (.when (Traced.seq (.flag _) (.print _ _ _ _ _ _)))
  have hnm : ∀ f, Growing (V.opt (n.field f) V.skip (namesAsMembers env)) := fun f =>
    .optSkip fun e _ => .each fun _ _ => .optSkip fun _ _ => hg.member _ _ trivial
  rw [visitMk env n]
  unfold visitAlg
  simp only [hn]
  refine .gate hl (.fst ?_ (gen_growing env n))
  rcases he with he | he
  · exact .fst (.snd ht0 (.opt he (namesAsMembers_runs hP (hm e (.inl he)) hk hx))) (hnm _)
  · refine .snd (.seq ht0 (.optSkip fun e he => ?_)) (.opt he (namesAsMembers_runs hP (hm e (.inr he)) hk hx))
    exact Tells.each.closed_each fun y hy => .optSkip fun x hx => hc.member _ _ (hm e (.inl he) y x (mem_walk hy) (Acting.nameId_iff hx))

/-- The names in handlers of exceptions -/
theorem except_runs (hP : Keeps env p P) {name : Option String} (hn : n.kind = .exceptHandler name) (hl : n.line ∉ env.noLines) {e k : Node} {x : String}
    (he : n.field .type = some e) (hk : In k e) (hx : IsName k x) : LRuns env P p n (addMember env x (some k.line) (some k.col)) (visit env n) := by
  have hc := closed_traced env P p n hP
  have hm : ∀ e, n.field .type = some e → ∀ m x, In m e → IsName m x → At env p n (.member x) := fun e he m x h1 h2 =>
    .inr (.inr (.inr (.inr (.inr ⟨⟨name, hn⟩, e, m, he, h1, h2⟩))))
  rw [visitMk env n]
  unfold visitAlg
  simp only [hn]
  refine .gate hl (.snd (.when (Traced.seq (.flag _) (.print _ _ _ _ _ _))) (.scope (.fst (.snd (.optSkip fun x hx => ?_) (.opt he (namesAsMembers_runs hP (hm e he) hk hx))) (gen_growing env n))))
  exact hc.userDef (.inr (.inr (.inr (.inr (.inr (.inr (.inr (.inr (.inl (hx ▸ hn))))))))))

theorem growing_attrTwoTier (n : Node) (s : S) (full : List (Option String)) (line : Nat) (res : String) : Growing (attrTwoTier env s full line res) := by
  unfold attrTwoTier
  split
  · exact .optSkip fun _ _ => (closed_growing env n).member _ _ trivial
  · exact .skip

theorem addMember_defs {m : String} {l c : Option Nat} {s t : S} (h : addMember env m l c s = .ok t) : t.userDefs = s.userDefs := by
  unfold addMember V.rd at h
  dsimp only at h
  split at h
  · obtain ⟨o, rfl⟩ := verbosePrint_run h; rfl
  · split at h
    · obtain ⟨o, rfl⟩ := verbosePrint_run h; rfl
    · unfold V.when at h
      split at h
      · rw [upd_run h]
        obtain ⟨d, hd⟩ := addLineCol_with { s with members := s.members ++ [m] } (.name m) l c
        rw [hd]
      · injection h with h; subst h; rfl

/-- Modules that are imported by a statement are found. -/
theorem importsModule_adds (hP : Keeps env p P) {m : String} (hi : ImportsModule n m) (hl : n.line ∉ env.noLines) (hd : Undefined p m)
    (he : env.cfg.isExcluded m = false) {s t : S} (hs : Known env P p n s) (hv : visit env n s = .ok t) : m ∈ t.modules := by
  cases hi with
  | «import» h1 h2 h3 =>
    obtain ⟨u, v, h4, h5, h6⟩ := (import_runs hP h1 h2 hl).1 s t hs hv
    rw [aliasOf_eq h3] at h5
    have h7 := addModule_adds h4 hd he h5
    exact h6.modules h7
  | «from» h1 =>
    obtain ⟨u, v, h4, h5, h6⟩ := (importFrom_runs hP h1 hl).1 s t hs hv
    have h7 := addModule_adds h4 hd he h5
    exact h6.modules h7
  | fromName h1 h2 h3 h4 =>
    have := ((importFrom_runs hP h1 hl).2 _ h2 (by rw [aliasOf_eq h3]; exact h4)).1
    rw [aliasOf_eq h3] at this
    obtain ⟨u, v, h4, h5, h6⟩ := this s t hs hv
    have h7 := addModule_adds h4 hd he h5
    exact h6.modules h7

/-- The modules of the statements before -/
theorem modules_after {l : List Node} (hl : ∀ k ∈ l, k ∈ p.kids) {u a : S} (hu : Learnt env p p u) (ha : V.each Child.visit (visitKids env l) u = .ok a)
    {m : String} (hm : ModVar env p l m) : m ∈ a.modules := by
  obtain ⟨hd, he, i, hi, hnl, him⟩ := hm
  obtain ⟨m₁, m₂, rfl⟩ := List.append_of_mem hi
  rw [visitKids_append] at ha
  obtain ⟨b, c, h1, h2, h3⟩ := each_split ha
  have h0 := keeps_anything env p
  have hip : i ∈ p.kids := hl i (by simp)
  have hlb : Learnt env p p b := (each_known h0 fun k hk => hl k (by simp [hk])).learnt hu h1
  exact (each_growing _ _ _ h3).modules (importsModule_adds h0 him hnl hd he (learnt_down hip (learnt_known hlb)) h2)

theorem place_modules {l₁ l₂ : List Node} {k : Node} (hk : p.kind = .module) (hks : p.kids = l₁ ++ k :: l₂) {t : S} (hv : visit env p S.init = .ok t) :
    ∃ a b, Known env (FactsAt env p l₁) p k a ∧ (∀ m, ModVar env p l₁ m → m ∈ a.modules) ∧ visit env k a = .ok b ∧ More b t := by
  rw [visitMk env p] at hv
  unfold visitAlg at hv
  simp only [hk] at hv
  unfold gen at hv
  obtain ⟨w, h1, h2⟩ := seq_run hv
  obtain ⟨u, h3, h4⟩ := seq_run h1
  have hwt : More w t := by rw [upd_run h2]; exact Rel.more.grow { Grows.refl w with }
  obtain ⟨li, o, rfl⟩ := genEnter_run h3
  have hlu : Learnt env p p { S.init with line := li, depth := 1, out := S.init.out ++ o } := { learnt_init env p with }
  rw [hks, visitKids_append] at h4
  obtain ⟨a, b, h5, h6, h7⟩ := each_split h4
  have hsub : ∀ k ∈ l₁, k ∈ p.kids := fun k hk => by rw [hks]; simp [hk]
  have hla : Learnt env p p a := (each_known (keeps_anything env p) hsub).learnt hlu h5
  exact ⟨a, b, learnt_down (by rw [hks]; simp) { hla with known := facts_after hsub hlu h5 }, fun m hm => modules_after hsub hlu h5 hm, h6,
    Rel.more.trans (Rel.more.grow (each_growing _ _ _ h7)) hwt⟩

/-- The name of a variable is looked up. -/
theorem nameRes_runs {x y : String} {bs : List String} {u v : S} (hy : Dict.get? u.nameRes x = some y)
    (h : attrNameRes env (some x :: bs.map some) n.line u = .ok v) :
    (Dict.get? u.importMemMod y = none → ∃ w, addMember env (dottedText y bs) (some n.line) none u = .ok w ∧ More w v) ∧
    (∀ m, Dict.get? u.importMemMod y = some m → ∃ w, addMember env (dottedText m (y :: bs)) (some n.line) none u = .ok w ∧ More w v) ∧
    ∀ a as z, y = dottedText a as → Identifier a → (∀ b ∈ as, Identifier b) → Dict.get? u.nameRes a = some z →
      ∃ w, w.userDefs = u.userDefs ∧ addMember env (dottedText z (as ++ bs)) (some n.line) none w = .ok v := by
  unfold attrNameRes V.rd at h
  dsimp only at h
  have : ((some (some x) : Option (Option String)).getD none).bind (Dict.get? u.nameRes) = some y := hy
  rw [List.head?_cons, this] at h
  obtain ⟨w, h1, h2⟩ := seq_run h
  have hwv : More w v := Rel.more.grow (growing_attrTwoTier n _ _ _ _ _ _ h2)
  refine ⟨fun hn => ?_, fun m hm => ?_, fun a as z ha hid hids hz => ⟨w, ?_, ?_⟩⟩
  · rw [hn] at h1
    refine ⟨w, ?_, hwv⟩
    rw [← dotted_text]
    exact h1
  · rw [hm] at h1
    refine ⟨w, ?_, hwv⟩
    rw [← dotted_text]
    exact h1
  · cases hx : Dict.get? u.importMemMod y with
    | none => rw [hx] at h1; exact addMember_defs h1
    | some m => rw [hx] at h1; exact addMember_defs h1
  · unfold attrTwoTier at h2
    rw [ha, splitDots_text hid hids] at h2
    simp only [hz] at h2
    rw [← dotted_text, List.map_append]
    exact h2

/-- What is used is found. -/
theorem uses_found {l : List Node} {x : String} (hu : Uses env p l n x) (hm : ¬ Marked env n) (hd : Undefined p x) (he : env.cfg.isExcluded x = false)
    (hk : (env.tables.mem x).isSome = true) {s t : S} (hs : Known env (FactsAt env p l) p n s) (hms : ∀ m, ModVar env p l m → m ∈ s.modules)
    (hv : visit env n s = .ok t) : x ∈ t.members := by
  have hP := keeps_facts env p l
  have hline : Markable n.kind → n.line ∉ env.noLines := fun hk h => hm ⟨hk, h⟩
  have hadd : ∀ {i c : Option Nat}, (∃ u v, Known env (FactsAt env p l) p n u ∧ addMember env x i c u = .ok v ∧ More v t) → x ∈ t.members := by
    rintro i c ⟨u, v, h1, h2, h3⟩
    have h4 := addMember_adds h1 hd he hk h2
    exact h3.members h4
  have hvar : ∀ {a : String} {bs : List String}, Path n a bs → Unrenamed p a →
      ∃ u v, Known env (FactsAt env p l) p n u ∧ attrNameRes env (some a :: bs.map some) n.line u = .ok v ∧ More v t := by
    intro a bs hc hun
    obtain ⟨b, hb⟩ := hc.1
    have hcn := path_names hc s.moduleAs
    rw [unrenamed hun hs.renames] at hcn
    exact (attr_runs hP hb hs hv hcn nofun).2.2
  cases hu with
  | «import» h1 h2 h3 =>
    have := (import_runs hP h1 h2 (hline (by rw [h1]; trivial))).2
    rw [aliasOf_eq h3] at this
    exact hadd (this s t hs hv)
  | importFrom h1 h2 h3 h4 =>
    have := ((importFrom_runs hP h1 (hline (by rw [h1]; trivial))).2 _ h2 (by rw [aliasOf_eq h3]; exact h4)).2.1
    rw [aliasOf_eq h3] at this
    exact hadd (this s t hs hv)
  | importName h1 h2 h3 h4 =>
    have := ((importFrom_runs hP h1 (hline (by rw [h1]; trivial))).2 _ h2 (by rw [aliasOf_eq h3]; exact h4)).2.2
    rw [aliasOf_eq h3] at this
    exact hadd (this s t hs hv)
  | call h1 => exact hadd (call_runs hP h1 (hline (by rw [h1.1]; trivial)) s t hs hv)
  | chain h1 h2 =>
    obtain ⟨b, hb⟩ := h1.1
    have hcn := path_names h1 s.moduleAs
    rw [unrenamed h2 hs.renames] at hcn
    have := (attr_runs hP hb hs hv hcn nofun).1
    rw [dotted_text] at this
    exact hadd this
  | renamed h1 h2 =>
    obtain ⟨b, hb⟩ := h1.1
    have hcn := path_names h1 s.moduleAs
    unfold resolveModuleName at hcn
    rw [hs.known.renames _ _ h2] at hcn
    have := (attr_runs hP hb hs hv hcn nofun).1
    rw [Option.getD_some, dotted_text] at this
    exact hadd this
  | @origin y m bs h1 h2 h3 h4 h5 =>
    obtain ⟨b, hb⟩ := h1.1
    have hcn := path_names h1 s.moduleAs
    rw [unrenamed h2 hs.renames] at hcn
    obtain ⟨u, v, g1, g2, g3⟩ := (attr_runs hP hb hs hv hcn nofun).2.1 m (hms m h5)
    refine hadd (i := some n.line) (c := none) ⟨u, v, g1, ?_, g3⟩
    unfold attrModule V.rd at g2
    dsimp only at g2
    rw [if_neg (by rintro h; injection h with h; injection h with h; exact h4 h.symm)] at g2
    have : ((some (some y) : Option (Option String)).getD none).bind (Dict.get? u.importMemMod) = some m := g1.known.origins _ _ h3
    rw [List.head?_cons, this] at g2
    rw [← dotted_text]
    exact g2
  | «variable» h1 h2 h3 h4 h5 =>
    obtain ⟨u, v, g1, g2, g3⟩ := hvar h1 h2
    obtain ⟨w, g4, g5⟩ := (nameRes_runs (g1.known.values _ _ h3) g2).1 (no_origin h4 h5 g1)
    exact hadd ⟨u, w, g1, g4, Rel.more.trans g5 g3⟩
  | variableFrom h1 h2 h3 h4 =>
    obtain ⟨u, v, g1, g2, g3⟩ := hvar h1 h2
    obtain ⟨w, g4, g5⟩ := (nameRes_runs (g1.known.values _ _ h3) g2).2.1 _ (g1.known.origins _ _ h4)
    exact hadd ⟨u, w, g1, g4, Rel.more.trans g5 g3⟩
  | variableTwice h1 h2 h3 h4 h5 h6 =>
    obtain ⟨u, v, g1, g2, g3⟩ := hvar h1 h2
    obtain ⟨w, g4, g5⟩ := (nameRes_runs (g1.known.values _ _ h3) g2).2.2 _ _ _ rfl h4 h5 (g1.known.values _ _ h6)
    have hud : w.userDefs.contains _ = false := g4 ▸ not_userDef g1 hd
    have g6 := addMember_puts hud he hk g5
    exact g3.members g6
  | @value k a b bs h1 h2 h3 =>
    have hcn := spelt_names h2 h1 s.moduleAs
    rw [show speltBase s.moduleAs k a = a by cases k <;> first | exact absurd rfl h3 | rfl] at hcn
    have := (attr_runs hP h1 hs hv hcn nofun).1
    rw [dotted_text] at this
    exact hadd this
  | @literal t b h1 =>
    obtain ⟨v, c, hb, _⟩ := id h1
    have := (attr_runs hP hb hs hv (literal_names h1 s.moduleAs) nofun).1
    rw [show [some t, some b] = some t :: [b].map some from rfl, dotted_text] at this
    exact hadd this
  | raise h1 h2 h3 h4 => exact hadd (raise_runs hP h1 (hline (by rw [h1]; trivial)) h2 h3 h4 s t hs hv)
  | except h1 h2 h3 h4 => exact hadd (except_runs hP h1 (hline (by rw [h1]; trivial)) h2 h3 h4 s t hs hv)

/-- Modules that are used are found. -/
theorem usesModule_found {l : List Node} {x : String} (hu : UsesModule env p l n x) (hm : ¬ Marked env n) (hd : Undefined p x)
    (he : env.cfg.isExcluded x = false) {s t : S} (hs : Known env (FactsAt env p l) p n s) (hms : ∀ m, ModVar env p l m → m ∈ s.modules)
    (hv : visit env n s = .ok t) : x ∈ t.modules := by
  have hP := keeps_facts env p l
  have hchain : ∀ {a m : String} {bs : List String}, Path n a bs → resolveModuleName s.moduleAs a = m → m ∈ s.modules → x = dottedText m bs → x ∈ t.modules := by
    intro a m bs hc hr hmm hx
    obtain ⟨b, hb⟩ := hc.1
    have hcn := path_names hc s.moduleAs
    rw [hr] at hcn
    obtain ⟨u, v, g1, g2, g3⟩ := (attr_runs hP hb hs hv hcn nofun).2.1 m hmm
    unfold attrModule V.rd at g2
    dsimp only at g2
    rw [List.head?_cons, if_pos rfl, dotted_text, ← hx] at g2
    have g4 := addModule_adds g1 hd he g2
    exact g3.modules g4
  cases hu with
  | «import» h1 =>
    refine importsModule_adds hP h1 (fun h => hm ⟨?_, h⟩) hd he hs hv
    cases h1 with
    | «import» h => rw [h]; trivial
    | «from» h => rw [h]; trivial
    | fromName h => rw [h]; trivial
  | chain h1 h2 h3 => exact hchain h1 (unrenamed h2 hs.renames) (hms _ h3) rfl
  | renamed h1 h2 h3 =>
    refine hchain h1 ?_ (hms _ h3) rfl
    unfold resolveModuleName
    rw [hs.known.renames _ _ h2]
    rfl

theorem uses_place {l₁ l₂ : List Node} {k : Node} (hk : p.kind = .module) (hks : p.kids = l₁ ++ k :: l₂) (hr : Seen env p n k) (hm : ¬ Marked env n)
    {x : String} (hd : Undefined p x) (he : env.cfg.isExcluded x = false) {t : S} (hv : visit env p S.init = .ok t) :
    (Uses env p l₁ n x → (env.tables.mem x).isSome = true → x ∈ t.members) ∧ (UsesModule env p l₁ n x → x ∈ t.modules) := by
  obtain ⟨a, b, h1, h2, h3, h4⟩ := place_modules hk hks hv
  obtain ⟨c, d, h5, h6, h7, h8⟩ := seen_learnt (keeps_facts env p l₁) hr h1 h3
  have hms : ∀ m, ModVar env p l₁ m → m ∈ c.modules := fun m hm => h5.modules (h2 m hm)
  refine ⟨fun hu hk => ?_, fun hu => ?_⟩
  · have h9 := uses_found hu hm hd he hk h6 hms h7
    exact h4.members (h8.members h9)
  · have h9 := usesModule_found hu hm hd he h6 hms h7
    exact h4.modules (h8.modules h9)

end
end Vermin
