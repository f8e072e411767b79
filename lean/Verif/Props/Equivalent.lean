import Verif.Spec.Equivalent
import Verif.Lemmas.Mute
import Verif.Props.Annotations
import Verif.Props.Arguments
import Verif.Props.Flow
import Verif.Props.Harmless
import Verif.Props.OldTrees
import Verif.Props.Program
import Verif.Props.Renamed
import Verif.Props.Shuffled
/-
C102: runs over files that say the same.
-/
namespace Vermin.Props
open Vermin Vermin.Py Vermin.Spec Vermin.V

theorem _root_.Vermin.Spec.Retold.refl (x : FileOut) : Retold x x := by
  match x with
  | .error e => exact rfl
  | .ok none => trivial
  | .ok (some r) => exact ⟨r.text, r.novermin, rfl, fun _ => rfl⟩

theorem _root_.Vermin.Spec.Retold.symm {x y : FileOut} (h : Retold x y) : Retold y x := by
  match x, y, h with
  | .error e, .error _, rfl => exact rfl
  | .ok none, .ok none, _ => trivial
  | .ok (some r), .ok (some _), ⟨t, l, rfl, h⟩ => exact ⟨r.text, r.novermin, rfl, fun hm => (h hm).symm⟩

theorem _root_.Vermin.Spec.Retold.trans {x y z : FileOut} (h : Retold x y) (h' : Retold y z) : Retold x z := by
  match x, y, h, z, h' with
  | .error e, .error _, rfl, .error _, rfl => exact rfl
  | .ok none, .ok none, _, .ok none, _ => trivial
  | .ok (some r), .ok (some _), ⟨t, l, rfl, h⟩, .ok (some _), ⟨t', l', rfl, h'⟩ => exact ⟨t', l', rfl, fun hm => (h' hm).trans (h hm)⟩

/-- States with the same modules that are backports and the same tip about annotations. -/
def Kindred (t t' : S) : Prop := t'.modules.filter isBackport = t.modules.filter isBackport ∧ t'.has .maybeAnnotations = t.has .maybeAnnotations

/-- The same error, or kindred states and the same minimum versions. -/
def KindredM : Except Err (S × Req) → Except Err (S × Req) → Prop
  | .ok (t, m), .ok (t', m') => m' = m ∧ Kindred t t'
  | .error e, .error e' => e = e'
  | _, _ => False

/-- The same error, or states whose minimum versions are. -/
def KindredT (env env' : Env) : Except Err S → Except Err S → Prop
  | .ok s, .ok s' => KindredM (minimumVersions env s) (minimumVersions env' s')
  | .error e, .error e' => e = e'
  | _, _ => False

theorem analyse_retold {env env' : Env} {n n' : Node} (hp : env'.path = env.path) (h : KindredT env env' (tour env n S.init) (tour env' n' S.init)) :
    Retold (analyse env n) (analyse env' n') := by
  unfold analyse
  revert h
  cases tour env n S.init with
  | error e =>
    cases tour env' n' S.init with
    | error e' => rintro rfl; exact rfl
    | ok s' => exact False.elim
  | ok s =>
    cases tour env' n' S.init with
    | error e' => exact False.elim
    | ok s' =>
      intro h
      unfold KindredT at h
      dsimp only at h ⊢
      revert h
      cases minimumVersions env s with
      | error e =>
        cases minimumVersions env' s' with
        | error e' =>
          rintro rfl
          cases e <;> first | exact rfl | exact ⟨_, _, by rw [hp], fun _ => rfl⟩
        | ok q => exact False.elim
      | ok q =>
        cases minimumVersions env' s' with
        | error e' => exact False.elim
        | ok q' =>
          obtain ⟨t, m⟩ := q
          obtain ⟨t', m'⟩ := q'
          rintro ⟨rfl, h1, h2⟩
          refine ⟨outputText env' t', env'.noLines, ?_, fun h => nomatch h⟩
          simp only [hp, h1, h2]

theorem analyse_novermin {env : Env} {n : Node} {r : ProcRes} (h : analyse env n = .ok (some r)) : r.novermin = env.noLines := by
  unfold analyse at h
  cases ht : tour env n S.init with
  | error e => rw [ht] at h; cases h
  | ok s =>
    rw [ht] at h
    dsimp only at h
    cases hm : minimumVersions env s with
    | ok q =>
      rw [hm] at h
      injection h with h
      injection h with h
      rw [← h]
    | error e =>
      rw [hm] at h
      cases e <;> cases h
      rfl

/-- The file as analysed. -/
def givenOut (c : Config) (path : String) (x : Given) : FileOut := analyse (Env.make c x.host path x.toks) x.node

theorem retold_tours {c : Config} {path : String} {h : Host} {n m : Node} {toks : List Tok}
    (ht : tour (Env.make c h path toks) m = tour (Env.make c h path toks) n) : Retold (givenOut c path ⟨h, n, toks⟩) (givenOut c path ⟨h, m, toks⟩) := by
  have : givenOut c path ⟨h, m, toks⟩ = givenOut c path ⟨h, n, toks⟩ := by
    unfold givenOut analyse
    rw [ht]
  rw [this]
  exact .refl _

theorem listing_retold {env : Env} {o : List String → List String} (hp : ∀ l, (env.order l).Perm l) (ho : ∀ l, (o l).Perm l) (n : Node) :
    Retold (analyse env n) (analyse (env.listing o) n) := by
  refine analyse_retold   rfl ?_
  have ht := tour_mixes  hp ho n S.init S.init.out (.refl _)
  revert ht
  show Shuffled _ (tour (env.listing o) n S.init) → _
  cases tour env n S.init with
  | error e =>
    cases tour (env.listing o) n S.init with
    | error e' => exact id
    | ok t => exact False.elim
  | ok t =>
    cases tour (env.listing o) n S.init with
    | error e => exact False.elim
    | ok t' =>
      rintro ⟨x, hx, rfl⟩
      show KindredM (minimumVersions env t) (minimumVersions env (t.with x))
      have hm := minimumVersions_mixes (env := env) t x hx
      revert hm
      cases minimumVersions env t with
      | error e =>
        cases minimumVersions env (t.with x) with
        | error e' => exact id
        | ok q => exact False.elim
      | ok q =>
        cases minimumVersions env (t.with x) with
        | error e' => exact False.elim
        | ok q' =>
          obtain ⟨u, m⟩ := q
          obtain ⟨u', m'⟩ := q'
          rintro ⟨h, y, _, rfl⟩
          exact ⟨h, rfl, rfl⟩

theorem retold_listing {c : Config} {path : String} {h : Host} {o : List String → List String} {n : Node} {toks : List Tok}
    (hp : ∀ l, (h.order l).Perm l) (ho : ∀ l, (o l).Perm l) : Retold (givenOut c path ⟨h, n, toks⟩) (givenOut c path ⟨Host.enumerating h o, n, toks⟩) :=
  listing_retold (env := Env.make c h path toks) hp ho n

theorem retold_placed {c : Config} {path : String} {h h' : Host} {n m : Node} {toks toks' : List Tok} {g : Layout} (ho : h'.order = h.order)
    (h1 : ∀ x, tour (Env.make c h' path toks') m S.init = .error x ↔ tour (Env.make c h path toks) n S.init = .error x)
    (h2 : ∀ s, tour (Env.make c h path toks) n S.init = .ok s → ∃ (l : Nat × Option String) (lc : _) (o : _),
      tour (Env.make c h' path toks') m S.init = .ok { s with line := l.1, functionName := l.2, lineCol := lc, out := o, ellipsisInSlices := s.ellipsisInSlices.map g.uid }) :
    Retold (givenOut c path ⟨h, n, toks⟩) (givenOut c path ⟨h', m, toks'⟩) := by
  refine analyse_retold rfl ?_
  dsimp only
  cases ht : tour (Env.make c h path toks) n S.init with
  | error x => rw [(h1 x).mpr ht]; exact rfl
  | ok s =>
    obtain ⟨l, lc, o, h3⟩ := h2 s ht
    rw [h3]
    have k : AlignedM g (minimumVersions (Env.make c h path toks) s) (minimumVersions (Env.make c h' path toks') (s.placed g l lc o)) := by
      rw [make_on c h h' path path toks toks' ho]
      exact minimumVersions_follows s l lc o
    show KindredM (minimumVersions (Env.make c h path toks) s) (minimumVersions (Env.make c h' path toks') (s.placed g l lc o))
    revert k
    cases minimumVersions (Env.make c h path toks) s with
    | error x =>
      cases minimumVersions (Env.make c h' path toks') _ with
      | error x' => exact id
      | ok t' => exact False.elim
    | ok t =>
      cases minimumVersions (Env.make c h' path toks') _ with
      | error x' => exact False.elim
      | ok t' =>
        obtain ⟨t, m⟩ := t
        obtain ⟨t', m'⟩ := t'
        rintro ⟨h, l, lc, o, rfl⟩
        exact ⟨h, rfl, rfl⟩

theorem retold_padded {c : Config} {path : String} {h h' : Host} {n m : Node} {toks toks' : List Tok} {g : Layout} (hp : c.printVisits = false)
    (ho : h'.order = h.order) (hu : ∀ u v, g.uid u = g.uid v → u = v)
    (hs : ∀ k, In k n → SameSource (Env.make c h path toks) (Env.make c h' path toks') k (k.moved g)) (hm : Padded (n.moved g) m) :
    Retold (givenOut c path ⟨h, n, toks⟩) (givenOut c path ⟨h', m, toks'⟩) := by
  obtain ⟨h1, h2⟩ := C100_findings c h h' path toks toks' n m g hp ho hu hs hm
  exact retold_placed ho h1 h2

theorem retold_more {c : Config} {path : String} {h : Host} {n m : Node} {toks : List Tok} (hp : c.printVisits = false) (hm : Padded n m) :
    Retold (givenOut c path ⟨h, n, toks⟩) (givenOut c path ⟨h, m, toks⟩) := by
  let env := Env.make c h path toks
  obtain ⟨h1, h2⟩ := follows_init (tour_padded (env := env) (e := ⟨env.path, env.source, env.noLines, env.dump⟩) (g := still) hp rfl (fun _ _ h => h) n m
    (by rw [moved_still]; exact hm) fun k _ => ⟨by rw [moved_still]; rfl, fun _ => by rw [moved_still]; rfl, fun _ _ => by rw [moved_still]; rfl⟩)
  exact retold_placed (h' := h) rfl h1 h2

theorem backports_renamed {ρ : String → String} (hi : ∀ x y, ρ x = ρ y → x = y) (hb : ∀ x ∈ backportModules, ρ x = x) (l : List String) :
    (l.map ρ).filter isBackport = l.filter isBackport := by
  have hc : ∀ x, isBackport x = true → ρ x = x := fun x h => hb x (List.contains_iff_mem.mp h)
  induction l with
  | nil => rfl
  | cons x l ih =>
    rw [List.map_cons, List.filter_cons, List.filter_cons, ih]
    by_cases h : isBackport x = true
    · rw [hc x h]
    · rw [if_neg h, if_neg]
      intro h'
      rw [hi _ _ (hc _ h')] at h'
      exact h h'

theorem retold_renamed {c : Config} {path : String} {h : Host} {n : Node} {toks : List Tok} {ρ : String → String} (hr : Renaming c ρ)
    (hb : ∀ x ∈ backportModules, ρ x = x) (ho : ∀ l, (h.order l).Perm l) (hf : "fstring-self-doc" ∉ c.features) :
    Retold (givenOut c path ⟨h, n, toks⟩) (givenOut c path ⟨h, n.renamed ρ, toks⟩) := by
  refine Retold.trans ?_ (retold_listing (o := alsoOrdered h.order ρ) ho (alsoOrdered_perm ho ρ)).symm
  have hf : c.hasFeature "fstring-self-doc" = false := by
    unfold Config.hasFeature
    rw [Bool.eq_false_iff]
    intro h
    exact hf (List.contains_iff_mem.mp h)
  have hn := hr.neutral h path toks
  refine analyse_retold (env := Env.make c h path toks) (env' := (Env.make c h path toks).listing (alsoOrdered h.order ρ)) rfl ?_
  have k := (tour_tracks hn hf n).run S.init [] []
  rw [S.init_renamed] at k
  revert k
  cases tour (Env.make c h path toks) n S.init with
  | error x =>
    cases tour _ (n.renamed ρ) S.init with
    | error x' => exact id
    | ok t' => exact False.elim
  | ok s =>
    cases tour _ (n.renamed ρ) S.init with
    | error x' => exact False.elim
    | ok s' =>
      rintro ⟨lc, o, rfl⟩
      have k := minimumVersions_tracks hn s lc o
      show KindredM (minimumVersions (Env.make c h path toks) s) _
      revert k
      cases minimumVersions (Env.make c h path toks) s with
      | error x =>
        cases minimumVersions _ (s.renamed ρ lc o) with
        | error x' => exact id
        | ok t' => exact False.elim
      | ok t =>
        cases minimumVersions _ (s.renamed ρ lc o) with
        | error x' => exact False.elim
        | ok t' =>
          obtain ⟨t, m⟩ := t
          obtain ⟨t', m'⟩ := t'
          rintro ⟨h, lc, o, rfl⟩
          exact ⟨h, backports_renamed hr.inj hb _, rfl⟩

/-- **C102 (files).** The results of files that say the same differ in the text that is shown and in the lines that are excluded only. -/
theorem C102_file {c : Config} {path : String} {x y : Given} (hp : c.printVisits = false) (h : SaysSame c path x y) :
    Retold (analyse (Env.make c x.host path x.toks) x.node) (analyse (Env.make c y.host path y.toks) y.node) := by
  show Retold (givenOut c path x) (givenOut c path y)
  induction h with
  | refl x => exact .refl _
  | symm _ ih => exact ih.symm
  | trans _ _ ih ih' => exact ih.trans ih'
  | @ordered h h' n toks hp ho hs hd =>
    have : givenOut c path ⟨h', n, toks⟩ = givenOut c path ⟨Host.enumerating h h'.order, n, toks⟩ := by
      unfold givenOut Env.make Host.enumerating
      dsimp only
      rw [hs, hd]
    rw [this]
    exact retold_listing hp ho
  | padded g ho hu hs hm => exact retold_padded hp ho hu hs hm
  | more hm => exact retold_more hp hm
  | renamed ρ hr hb ho hf => exact retold_renamed hr hb ho hf
  | pruned h => exact retold_tours (C24_partial _ _ _ hp h)
  | reannotated he h => exact retold_tours (C34_partial _ _ _ hp he h)
  | flow hi hl h => exact retold_tours (C94_program hp hi hl h).symm
  | old h => exact retold_tours (C92_program_partial hp h)

/-! ### At low verbosity nothing is shown about the contents of a file -/

theorem outputText_nothing {env : Env} (hp : env.cfg.printVisits = false) (ho : env.order [] = []) {s : S} (hs : s.out = []) : outputText env s = "" := by
  have : outputLines env s = [] := by
    unfold outputLines
    rw [hs, hp]
    show sortOutputLines env.cfg (env.order (distinct [])) = []
    rw [show distinct ([] : List String) = [] from rfl, ho]
    unfold sortOutputLines
    split
    · split <;> rfl
    · rfl
  unfold outputText
  rw [this]
  rfl

/-- C102: at verbosity 0 and 1 there is no text, except for files that are incompatible by themselves. -/
theorem C102_silent {env : Env} (hv : env.cfg.verbose < 2) (hp : env.cfg.printVisits = false) (ho : ∀ l, (env.order l).Perm l) {n : Node} {r : ProcRes}
    (h : analyse env n = .ok (some r)) : r.mins = none ∨ r.text = "" := by
  have ho : env.order [] = [] := List.Perm.eq_nil (ho [])
  unfold analyse at h
  cases ht : tour env n S.init with
  | error e => rw [ht] at h; cases h
  | ok s =>
    rw [ht] at h
    dsimp only at h
    cases hm : minimumVersions env s with
    | ok q =>
      obtain ⟨t, m⟩ := q
      rw [hm] at h
      injection h with h
      injection h with h
      refine .inr ?_
      rw [← h]
      exact outputText_nothing hp ho ((minimumVersions_mute hv hm).trans (tour_mute hv hp n _ _ ht))
    | error e =>
      rw [hm] at h
      cases e <;> cases h
      exact .inl rfl

/-! ### Runs -/

/-- Variables of the loop that differ in what was printed and in whether lines were excluded. -/
def Reckoned (a a' : ProcAcc) : Prop := ∃ x b, a' = { a with out := x, usedNovermin := b }

theorem step_reckoned (cfg : Config) {a a' : ProcAcc} (h : Reckoned a a') (r : ProcRes) (t : String) (l : List Nat) :
    Reckoned (procStep cfg a (some r)) (procStep cfg a' (some { r with text := t, novermin := l })) := by
  obtain ⟨x, b, rfl⟩ := h
  unfold procStep
  simp only
  cases r.mins with
  | none => exact ⟨_, _, rfl⟩
  | some m =>
    simp only
    cases combineVersions cfg.ignoreIncomp a.mins m with
    | ok _ => exact ⟨_, _, rfl⟩
    | error _ => exact ⟨_, _, rfl⟩

theorem loop_reckoned (cfg : Config) : ∀ {rs rs' : List FileOut} {a a' : ProcAcc}, Pairwise₂ Retold rs rs' → Reckoned a a' →
    Reckoned (procLoop cfg a rs).1 (procLoop cfg a' rs').1 ∧ (procLoop cfg a' rs').2 = (procLoop cfg a rs).2
  | [], [], _, _, _, h => ⟨h, rfl⟩
  | [], _ :: _, _, _, h, _ => by cases h.1
  | _ :: _, [], _, _, h, _ => by cases h.1
  | r :: rs, r' :: rs', a, a', hr, h => by
    have h0 : Retold r r' := hr.2 (r, r') (.head _)
    have ht : Pairwise₂ Retold rs rs' := ⟨Nat.succ.inj hr.1, fun x hx => hr.2 x (.tail _ hx)⟩
    match r, r', h0 with
    | .error e, .error _, rfl => exact ⟨h, rfl⟩
    | .ok none, .ok none, _ => exact loop_reckoned cfg (rs := rs) (rs' := rs') ht h
    | .ok (some r), .ok (some _), ⟨t, l, rfl, _⟩ => exact loop_reckoned cfg (rs := rs) (rs' := rs') ht (step_reckoned cfg h r t l)

theorem firstError_retold : ∀ {rs rs' : List FileOut}, Pairwise₂ Retold rs rs' → firstError rs' = firstError rs
  | [], [], _ => rfl
  | [], _ :: _, h => by cases h.1
  | _ :: _, [], h => by cases h.1
  | r :: rs, r' :: rs', hr => by
    have h0 : Retold r r' := hr.2 (r, r') (.head _)
    have ht : Pairwise₂ Retold rs rs' := ⟨Nat.succ.inj hr.1, fun x hx => hr.2 x (.tail _ hx)⟩
    match r, r', h0 with
    | .error e, .error _, rfl => rfl
    | .ok none, .ok none, _ => exact firstError_retold (rs := rs) (rs' := rs') ht
    | .ok (some r), .ok (some _), _ => exact firstError_retold (rs := rs) (rs' := rs') ht

/-- The same error, or variables that differ in what was printed and in whether lines were excluded. -/
def ReckonedE : Except Err ProcAcc → Except Err ProcAcc → Prop
  | .ok a, .ok a' => Reckoned a a'
  | .error e, .error e' => e = e'
  | _, _ => False

theorem end_reckoned (cfg : Config) {p p' : ProcAcc × Option Err} (h : Reckoned p.1 p'.1) (he : p'.2 = p.2) : ReckonedE (procEnd cfg p) (procEnd cfg p') := by
  obtain ⟨a, e⟩ := p
  obtain ⟨a', e'⟩ := p'
  have he : e' = e := he
  subst he
  obtain ⟨x, b, rfl⟩ : Reckoned a a' := h
  unfold procEnd
  cases e' with
  | none => exact ⟨x, b, rfl⟩
  | some e => cases e <;> first | exact rfl | exact ⟨_, _, rfl⟩

theorem report_reckoned (cfg : Config) (versions : Bool) (a : ProcAcc) (x : List String) (b : Bool) :
    (∃ e, report cfg versions a = .error e ∧ report cfg versions { a with out := x, usedNovermin := b } = .error e) ∨
    ∃ out out' code, report cfg versions a = .ok (out, code) ∧ report cfg versions { a with out := x, usedNovermin := b } = .ok (out', code) := by
  unfold report
  simp only [bind, Except.bind, pure, Except.pure]
  cases reportMins cfg a.mins with
  | error e => exact .inl ⟨e, rfl, rfl⟩
  | ok mins =>
    cases reportIncomps cfg a.mins with
    | error e => exact .inl ⟨e, rfl, rfl⟩
    | ok incomps =>
      cases reportRange cfg versions a.uniqueVersions with
      | error e => exact .inl ⟨e, rfl, rfl⟩
      | ok range =>
        cases reportTargets cfg (reqsOf a.mins) with
        | error e => exact .inl ⟨e, rfl, rfl⟩
        | ok q => exact .inr ⟨_, _, _, rfl, rfl⟩

theorem mainRun_retold (cfg : Config) (versions : Bool) {rs rs' : List FileOut} (h : Pairwise₂ Retold rs rs') :
    (∃ e, mainRun cfg versions rs = .error e ∧ mainRun cfg versions rs' = .error e) ∨
    ∃ out out' code, mainRun cfg versions rs = .ok (out, code) ∧ mainRun cfg versions rs' = .ok (out', code) := by
  unfold mainRun
  rw [h.1]
  by_cases h0 : rs'.length = 0
  · rw [if_pos h0, if_pos h0]
    exact .inr ⟨_, _, _, rfl, rfl⟩
  · rw [if_neg h0, if_neg h0]
    have h0 : Reckoned ProcAcc.init ProcAcc.init := ⟨_, _, rfl⟩
    have hl := loop_reckoned (localConfig cfg) h h0
    have he : ReckonedE (if (localConfig cfg).processes = 1 then processSeq (localConfig cfg) rs else processPar (localConfig cfg) rs)
        (if (localConfig cfg).processes = 1 then processSeq (localConfig cfg) rs' else processPar (localConfig cfg) rs') := by
      split
      · unfold processSeq
        rw [firstError_retold h]
        split
        · exact end_reckoned _ h0 rfl
        · exact end_reckoned _ hl.1 hl.2
      · exact end_reckoned _ hl.1 hl.2
    revert he
    generalize (if (localConfig cfg).processes = 1 then processSeq (localConfig cfg) rs else processPar (localConfig cfg) rs) = x
    generalize (if (localConfig cfg).processes = 1 then processSeq (localConfig cfg) rs' else processPar (localConfig cfg) rs') = y
    intro he
    match x, y, he with
    | .error e, .error _, rfl => exact .inl ⟨e, rfl, rfl⟩
    | .ok a, .ok _, ⟨o, b, rfl⟩ =>
      rcases report_reckoned cfg versions a o b with ⟨e, h1, h2⟩ | ⟨out, out', code, h1, h2⟩
      · simp only [h1, h2]; exact .inl ⟨e, rfl, rfl⟩
      · simp only [h1, h2]; exact .inr ⟨_, _, _, rfl, rfl⟩

theorem individual_retold {c : Config} {path : String} {h h' : Host} {p p' : ParseOut} (hp : c.printVisits = false) (hr : ReadsSame c path h p h' p') :
    (processIndividual c h' path p').1 = (processIndividual c h path p).1 ∧ Retold (processIndividual c h path p).2 (processIndividual c h' path p').2 := by
  cases hr with
  | ok hs =>
    unfold processIndividual
    dsimp only
    split
    · exact ⟨rfl, rfl⟩
    · exact ⟨rfl, C102_file hp hs⟩
  | same p hm hn =>
    have : processIndividual c h' path p = processIndividual c h path p := by
      unfold processIndividual
      cases p with
      | ok n toks => exact absurd rfl (hn n toks)
      | syntaxError e => dsimp only; rw [hm]
      | _ => rfl
    rw [this]
    exact ⟨rfl, .refl _⟩

theorem zip_maps_mem {α β γ : Type} (f : α → β) (g : α → γ) (R : β → γ → Prop) : ∀ l : List α, (∀ a ∈ l, R (f a) (g a)) → Pairwise₂ R (l.map f) (l.map g)
  | [], _ => ⟨rfl, fun _ h => absurd h List.not_mem_nil⟩
  | a :: l, h => pairs_append (l := [f a]) (l' := [g a]) (pairs_one (h a (.head _))) (zip_maps_mem f g R l fun b hb => h b (.tail _ hb))

/-- The second world has other files at the paths that are analysed; what they say is the same, whether Vermin is quiet or not. -/
structure _root_.Vermin.Spec.SameFiles (w w' : World) (p : Parsed) : Prop where
  args : w'.args = w.args
  fs : w'.fs = w.fs
  rounds : w'.rounds = w.rounds
  files : ∀ q, AnalysedPath w p q → ∀ b, ReadsSame { p.cfg with quiet := b } (String.ofList q) (w.host q) (w.parse q) (w'.host q) (w'.parse q)

theorem localConfig_quiet (c : Config) : ∃ b, localConfig c = { c with quiet := b } := by
  unfold localConfig
  split
  · exact ⟨false, rfl⟩
  · exact ⟨c.quiet, rfl⟩

/-- **C102 (exit codes).** Runs over files that say the same end the same way, with the same exit code, whatever is shown. -/
theorem C102_code (w w' : World) (argv : List String) (p : Parsed) (ha : parseArgs w.args argv (Config.init w.args.cpus) = .ok p)
    (hp : p.cfg.printVisits = false) (hw : SameFiles w w' p) : EndsSame (program w argv) (program w' argv) := by
  obtain ⟨b, hb⟩ := localConfig_quiet p.cfg
  unfold program
  rw [hw.args, ha, hw.fs, hw.rounds]
  dsimp only
  cases hm : mainPaths w.fs p.cfg w.rounds (p.paths.map String.toList) with
  | error e => exact rfl
  | ok r =>
    cases r with
    | none => trivial
    | some paths =>
      have hmem := (C44_main hm).2.2
      have h2 : Pairwise₂ Retold ((w.results p.cfg paths).map Prod.snd) ((w'.results p.cfg paths).map Prod.snd) := by
        unfold World.results
        rw [List.map_map, List.map_map, hb]
        refine zip_maps_mem _ _ _ paths fun q hq => ?_
        exact (individual_retold (c := { p.cfg with quiet := b }) hp (hw.files q ((hmem q).mp hq) b)).2
      dsimp only
      rcases mainRun_retold p.cfg p.versions h2 with ⟨e, h, h'⟩ | ⟨out, out', code, h, h'⟩
      · rw [h, h']; exact rfl
      · rw [h, h']; exact rfl

/-- What the loop asks of a result. -/
def marked (r : ProcRes) : ProcRes := { r with novermin := r.novermin.take 1 |>.map fun _ => 0 }

theorem procStep_marked (cfg : Config) (a : ProcAcc) (r : ProcRes) : procStep cfg a (some (marked r)) = procStep cfg a (some r) := by
  unfold procStep marked
  have : decide ((r.novermin.take 1 |>.map fun _ => 0).length > 0) = decide (r.novermin.length > 0) := by
    cases r.novermin <;> simp
  simp only [this]

def markedOut : FileOut → FileOut
  | .ok (some r) => .ok (some (marked r))
  | x => x

theorem procLoop_marked (cfg : Config) : ∀ (rs : List FileOut) (a : ProcAcc), procLoop cfg a (rs.map markedOut) = procLoop cfg a rs
  | [], _ => rfl
  | .error e :: _, _ => rfl
  | .ok none :: rs, a => procLoop_marked cfg rs _
  | .ok (some r) :: rs, a => by
    show procLoop cfg (procStep cfg a (some (marked r))) (rs.map markedOut) = procLoop cfg (procStep cfg a (some r)) rs
    rw [procStep_marked, procLoop_marked cfg rs]

theorem firstError_marked : ∀ rs : List FileOut, firstError (rs.map markedOut) = firstError rs
  | [] => rfl
  | .error e :: _ => rfl
  | .ok none :: rs => firstError_marked rs
  | .ok (some r) :: rs => firstError_marked rs

theorem mainRun_marked (cfg : Config) (versions : Bool) (rs : List FileOut) : mainRun cfg versions (rs.map markedOut) = mainRun cfg versions rs := by
  unfold mainRun processSeq processPar
  rw [List.length_map, firstError_marked, procLoop_marked]

/-- The exclusions of lines are used in both, or in neither. -/
theorem individual_same {c : Config} {path : String} {h h' : Host} {p p' : ParseOut} (hv : c.verbose < 2) (hp : c.printVisits = false)
    (ho : ∀ l, (h.order l).Perm l) (ho' : ∀ l, (h'.order l).Perm l) (hm : MarkedSame p p') (hr : ReadsSame c path h p h' p') :
    (processIndividual c h' path p').1 = (processIndividual c h path p).1 ∧
      markedOut (processIndividual c h' path p').2 = markedOut (processIndividual c h path p).2 := by
  obtain ⟨h1, h2⟩ := individual_retold hp hr
  refine ⟨h1, ?_⟩
  cases hr with
  | same p hj hn =>
    have : processIndividual c h' path p = processIndividual c h path p := by
      unfold processIndividual
      cases p with
      | ok n toks => exact absurd rfl (hn n toks)
      | syntaxError e => dsimp only; rw [hj]
      | _ => rfl
    rw [this]
  | @ok _ n n' toks toks' hs =>
    clear h1
    unfold processIndividual at h2 ⊢
    dsimp only at h2 ⊢
    split
    · rfl
    · rename_i hb
      rw [if_neg hb, if_neg hb] at h2
      dsimp only at h2 ⊢
      have k := fun r => C102_silent (env := Env.make c h path toks) hv hp ho (n := n) (r := r)
      have k' := fun r => C102_silent (env := Env.make c h' path toks') hv hp ho' (n := n') (r := r)
      have l := fun r (hr : analyse (Env.make c h path toks) n = .ok (some r)) => analyse_novermin hr
      have l' := fun r (hr : analyse (Env.make c h' path toks') n' = .ok (some r)) => analyse_novermin hr
      revert h2 k k' l l'
      generalize analyse (Env.make c h path toks) n = x
      generalize analyse (Env.make c h' path toks') n' = y
      intro h2 k k' l l'
      match x, y, h2 with
      | .error e, .error _, rfl => rfl
      | .ok none, .ok none, _ => rfl
      | .ok (some r), .ok (some _), ⟨t, v, rfl, ht⟩ =>
        have hl := l r rfl
        have hl' : v = _ := l' _ rfl
        have hn : (v.take 1 |>.map fun _ => 0) = (r.novermin.take 1 |>.map fun _ => 0) := by
          have : v = [] ↔ r.novermin = [] := by
            rw [hl, hl']
            show (if c.parseComments then comments toks' else []) = [] ↔ (if c.parseComments then comments toks else []) = []
            split
            · exact hm.symm
            · exact Iff.rfl
          cases hv : v with
          | nil => rw [this.mp hv]
          | cons a v' =>
            cases hr : r.novermin with
            | nil => rw [this.mpr hr] at hv; cases hv
            | cons b l => rfl
        have htx : t = r.text := by
          rcases k r rfl with h | h
          · exact ht h
          · rcases k' _ rfl with h' | h'
            · exact ht h'
            · exact Eq.trans h' h.symm
        subst htx
        show Except.ok (some { r with novermin := _ }) = Except.ok (some { r with novermin := _ })
        rw [hn]

/-- **C102.** At verbosity 0 and 1, runs over files that say the same are the same: they print the same and have the same exit code. -/
theorem C102_program (w w' : World) (argv : List String) (p : Parsed) (ha : parseArgs w.args argv (Config.init w.args.cpus) = .ok p)
    (hv : p.cfg.verbose < 2) (hp : p.cfg.printVisits = false) (hw : SameFiles w w' p) (ho : ∀ q l, ((w.host q).order l).Perm l)
    (ho' : ∀ q l, ((w'.host q).order l).Perm l) (hm : ∀ q, AnalysedPath w p q → MarkedSame (w.parse q) (w'.parse q)) :
    program w' argv = program w argv := by
  obtain ⟨b, hb⟩ := localConfig_quiet p.cfg
  unfold program
  rw [hw.args, ha, hw.fs, hw.rounds]
  dsimp only
  cases hpa : mainPaths w.fs p.cfg w.rounds (p.paths.map String.toList) with
  | error e => rfl
  | ok r =>
    cases r with
    | none => rfl
    | some paths =>
      have hmem := (C44_main hpa).2.2
      have key := fun q hq => individual_same (c := { p.cfg with quiet := b }) hv hp (ho q) (ho' q) (hm q ((hmem q).mp hq)) (hw.files q ((hmem q).mp hq) b)
      have h1 : (w'.results p.cfg paths).map Prod.fst = (w.results p.cfg paths).map Prod.fst := by
        unfold World.results
        rw [List.map_map, List.map_map, hb]
        exact List.map_congr_left fun q hq => (key q hq).1
      have h2 : ((w'.results p.cfg paths).map Prod.snd).map markedOut = ((w.results p.cfg paths).map Prod.snd).map markedOut := by
        unfold World.results
        rw [List.map_map, List.map_map, List.map_map, List.map_map, hb]
        exact List.map_congr_left fun q hq => (key q hq).2
      dsimp only
      rw [h1, ← mainRun_marked p.cfg p.versions ((w'.results p.cfg paths).map Prod.snd), h2, mainRun_marked]

/-! ### Examples -/

/-- A world with one program. -/
def worldOf (n : Node) : World := { exampleWorld with parse := fun _ => .ok n [] }

/-- `class größe: pass` and `nonlocal x` -/
def sizeLess : Node := prog [nd .body (.classDef "größe") 1 [nd .body .pass 1 []], nd .body .nonlocal 2 []]
/-- The same, with `pass` at the end. -/
def sizeMore : Node := prog [nd .body (.classDef "größe") 1 [nd .body .pass 1 []], nd .body .nonlocal 2 [], nd .body .pass 3 []]

theorem sizeMore_padded : Padded sizeLess sizeMore := by
  refine .node trivial (.keep (.keep (.more rfl ?_ .nil)))
  intro k hk
  cases hk with
  | self => trivial
  | kid h _ => exact absurd h List.not_mem_nil

theorem size_backports : ∀ x ∈ backportModules, wordwise (swapped "größe" "höhe") x = x := by decide +kernel

theorem size_says (c : Config) (hx : c.exclusions = []) (hf : c.features = []) (path : String) :
    SaysSame c path ⟨exampleHost, sizeLess, []⟩ ⟨exampleHost, sizeMore.renamed (wordwise (swapped "größe" "höhe")), []⟩ :=
  .trans (.more sizeMore_padded) (.renamed _ (swapped_renaming
    (foreign_unused (by decide) ⟨'ö', by decide, by decide⟩ fun x h => by rw [hx] at h; exact absurd h List.not_mem_nil)
    (foreign_unused (by decide) ⟨'ö', by decide, by decide⟩ fun x h => by rw [hx] at h; exact absurd h List.not_mem_nil))
    size_backports (fun _ => .refl _) (by rw [hf]; exact List.not_mem_nil))

theorem C102_witness : ∃ p, parseArgs (worldOf sizeLess).args ["-t=3.0", "a.py"] (Config.init 4) = .ok p ∧ p.cfg.verbose < 2 ∧ p.cfg.printVisits = false ∧
    SameFiles (worldOf sizeLess) (worldOf (sizeMore.renamed (wordwise (swapped "größe" "höhe")))) p ∧
    program (worldOf (sizeMore.renamed (wordwise (swapped "größe" "höhe")))) ["-t=3.0", "a.py"] = program (worldOf sizeLess) ["-t=3.0", "a.py"] ∧
    ∃ files out, program (worldOf sizeLess) ["-t=3.0", "a.py"] = .exit files out 0 := by
  have ha : parseArgs (worldOf sizeLess).args ["-t=3.0", "a.py"] (Config.init 4) =
      .ok { cfg := { Config.init 4 with targets := [(true, ⟨3, 0⟩)] }, paths := ["a.py"], versions := false } := by decide +kernel
  have hs : SameFiles (worldOf sizeLess) (worldOf (sizeMore.renamed (wordwise (swapped "größe" "höhe"))))
      { cfg := { Config.init 4 with targets := [(true, ⟨3, 0⟩)] }, paths := ["a.py"], versions := false } :=
    ⟨rfl, rfl, rfl, fun q _ b => .ok (size_says _ rfl rfl _)⟩
  refine ⟨_, ha, by decide, rfl, hs, C102_program _ _ _ _ ha (by decide) rfl hs (fun _ _ => .refl _) (fun _ _ => .refl _) (fun _ _ => .rfl), ?_⟩
  have key : (match program (worldOf sizeLess) ["-t=3.0", "a.py"] with | .exit _ _ 0 => true | _ => false) = true := by decide +kernel
  split at key
  · rename_i files out h; exact ⟨files, out, h⟩
  · cases key

/-- What is printed in a run. -/
def printed : Outcome → List String
  | .exit _ out _ => out
  | _ => []

/-- C102: at verbosity 3 the positions, which may differ, are shown. -/
theorem C102_shown : printed (program (worldOf (prog [st 1 (nm .value "x" 1), nd .body .nonlocal 1 []])) ["-vvv", "--no-tips", "a.py"]) ≠
    printed (program (worldOf (prog [st 2 (nm .value "x" 2), nd .body .nonlocal 2 []])) ["-vvv", "--no-tips", "a.py"]) := by decide +kernel

end Vermin.Props
