import Verif.Spec.Enclosed
import Verif.Lemmas.Flow
import Verif.Props.Beside
/-
The visit of a function without parameters: that of its body, after which the names defined in it are forgotten.
-/
namespace Vermin
open Py V Spec Node

section
variable {env : Env} {name : String} {i a : Info} {l : List Node}

/-- A node's line is where the visitor is. -/
def atLine (i : Info) : V := V.opt i.line V.skip (fun l => V.upd fun s => { s with line := l })

theorem enclosed_fields (h : Encloses env name i a l) {f : Fld} (hf : f ≠ .args) (hb : f ≠ .body) : (enclosed i a l).fields f = [] := by
  refine List.filter_eq_nil_iff.mpr fun k hk => ?_
  rcases List.mem_cons.mp hk with rfl | hk
  · simpa [Node.fld, Node.info, h.parameters.2] using hf.symm
  · simpa [h.body k hk] using hb.symm

theorem visit_enclosed (hp : env.cfg.printVisits = false) (h : Encloses env name i a l) :
    visits env [enclosed i a l] = V.rd fun s => addUserDef name ;; inScope (atLine i ;; (atLine a ;; visits env l)) ;; upd fun t => { t with seenYield := s.seenYield } := by
  obtain ⟨ln, hln, hno⟩ := h.line
  have hsh : ∀ ks : List Node, (∀ k ∈ ks, k ∈ (.mk a [] : Node) :: l) → Shifts (V.each Child.visit (visitKids env ks)) := fun ks hks =>
    .each _ (visitKids_shifts hp ks fun k hk o ho => h.undirected o (In.trans ho (.kid (hks k hk) (.self _)))).visit
  have hargs : (visitNode env (.mk a [])).1 = atLine a := by
    rw [visitNode_mk]
    show visitAlg env (.mk a []) (visitKids env []) = _
    unfold visitAlg
    simp only [Node.kind, Node.info, h.parameters.1, visitArguments]
    rw [gen_nested hp _ (hsh [] nofun)]
    funext s
    show V.seq (atLine a) V.skip s = _
    exact congrFun (seq_skip' _) s
  have hret : ∀ k ∈ (.mk a [] : Node) :: l, k.fld ≠ .returns := fun k hk => by
    rcases List.mem_cons.mp hk with rfl | hk
    · simp [Node.fld, Node.info, h.parameters.2]
    · rw [h.body k hk]; nofun
  have hkids : dropReturnsKids env (visitKids env (.mk a [] :: l)) = visitKids env (.mk a [] :: l) := by
    unfold dropReturnsKids
    refine List.filter_eq_self.mpr fun c hc => ?_
    obtain ⟨h1, _⟩ := of_mem_visitKids hc
    simp [hret _ h1]
  have hdeco : funcDecos env (enclosed i a l) = V.skip := by
    unfold funcDecos decoLine
    rw [enclosed_fields h (by nofun) (by nofun)]
    rfl
  have hr : (enclosed i a l).field .returns = none := by
    refine List.find?_eq_none.mpr fun k hk => ?_
    simpa using hret k hk
  have ha : (enclosed i a l).field .args = some (.mk a []) := by
    show List.find? _ ((.mk a [] : Node) :: l) = _
    rw [List.find?_cons_of_pos]
    simp [Node.fld, Node.info, h.parameters.2]
  have hann : funcAnns env (enclosed i a l) = V.skip := by
    unfold funcAnns paramsOf
    rw [hr, ha]
    rfl
  have hdir : dirFuncs env (enclosed i a l) name = V.skip := by
    unfold dirFuncs
    rw [ha]
    funext s
    cases hi : env.isInitFile with
    | false => simp [V.opt, V.rd, V.when]
    | true =>
      have := h.undirected (enclosed i a l) (.self _) hi name (.inl h.function)
      simp [V.opt, V.rd, V.when, this]
  rw [visits_one, visitNode_mk]
  show visitAlg env (enclosed i a l) (visitKids env (.mk a [] :: l)) = _
  unfold visitAlg
  have hk : (enclosed i a l).kind = .functionDef name := h.function
  rw [hk]
  show gate env (enclosed i a l) _ = _
  have hg : env.isNoLine (enclosed i a l).line = false := by
    simpa [Env.isNoLine, enclosed, Node.line, Node.info, hln] using hno
  unfold gate
  rw [hg, if_neg (by simp)]
  unfold handleFunctionDef
  rw [hdeco, hann, hdir, hkids, gen_nested hp _ (hsh _ fun _ h => h)]
  have hv : V.each Child.visit (visitKids env (.mk a [] :: l)) = atLine a ;; visits env l := by
    show (visitNode env (.mk a [])).1 ;; visits env l = _
    rw [hargs]
  rw [hv]
  simp only [seq_skip']
  rfl
end

section
variable {K : String → Prop} {U : Nat → Prop} {E : Prop} {env : Env} {name : String} {i a : Info} {pre l : List Node}

/-- At the start a state is beside itself. -/
theorem beside_init (ln d : Nat) (o : List String) : Beside K U E S.init { S.init with line := ln, depth := d, out := o } { S.init with line := ln, depth := d, out := o } where
  toRetains := .refl _
  toGains := { flagsIn := nofun, modulesIn := nofun, membersIn := nofun, kwargsIn := nofun, decosIn := nofun, strftimeIn := nofun, bytesDirsIn := nofun,
               typecodesIn := nofun, errsIn := nofun, encsIn := nofun }
  renames := ⟨fun _ _ => rfl, nofun⟩
  origins := ⟨fun _ _ => rfl, nofun⟩
  results := ⟨fun _ _ => rfl, nofun⟩
  types _ _ := rfl
  typesKept := nofun
  defs _ _ := .rfl
  defsIn _ h := .inl h
  defsOld _ h := h
  depth := rfl
  loops := rfl
  whiles := rfl
  finals := rfl
  yields := rfl
  awaits := rfl
  calls := rfl
  callsKept := nofun
  slices _ _ := .rfl
  modulesKept := nofun
  membersKept := nofun
  strange := nofun
  plain := nofun
  sources := nofun

/-- A state in which only this name is defined. -/
def named (name : String) : S := { S.init with userDefs := [name] }

theorem mem_addSet {l : List String} {x y : String} : y ∈ addSet l x ↔ y ∈ l ∨ y = x := by
  refine ⟨fun h => ?_, fun h => h.elim mem_addSet_left fun h => h ▸ mem_addSet_self l x⟩
  unfold addSet at h
  split at h
  · exact .inl h
  · simpa using h

/-- Another name may be defined as well. -/
theorem Beside.named {s : S} (h : Beside K U E S.init s s) (hn : ¬ K name) (ln : Nat) :
    Beside K U E (Vermin.named name) s { s with userDefs := addSet s.userDefs name, line := ln } :=
  { h with
    defs := fun x hx => by
      show x ∈ addSet _ _ ↔ _
      rw [mem_addSet]
      exact ⟨fun h => h.elim id fun h => absurd (h ▸ hx) hn, .inl⟩
    defsIn := fun x hx => by
      rcases mem_addSet.mp hx with hx | hx
      · exact .inl hx
      · exact .inr (by rw [hx]; exact List.mem_singleton.mpr rfl)
    defsOld := fun x hx => by
      rw [List.mem_singleton.mp hx]
      exact mem_addSet_self _ _ }

theorem atLine_run (i : Info) (s : S) : ∃ ln, atLine i s = .ok { s with line := ln } := by
  unfold atLine
  cases i.line with
  | none => exact ⟨s.line, rfl⟩
  | some ln => exact ⟨ln, rfl⟩

theorem enclosed_run (hp : env.cfg.printVisits = false) (h : Encloses env name i a l) (s : S) : ∃ ln, visits env [enclosed i a l] s =
    match visits env l { s with userDefs := addSet s.userDefs name, line := ln } with
    | .ok t => .ok { t with userDefs := addSet s.userDefs name, seenYield := s.seenYield }
    | .error e => .error e := by
  obtain ⟨n1, e1⟩ := atLine_run i { s with userDefs := addSet s.userDefs name }
  obtain ⟨n2, e2⟩ := atLine_run a { s with userDefs := addSet s.userDefs name, line := n1 }
  refine ⟨n2, ?_⟩
  rw [visit_enclosed hp h]
  show V.seq (V.seq _ (V.rd fun _ => V.seq (V.seq (atLine i) (V.seq (atLine a) (visits env l))) _)) _ s = _
  simp only [V.seq, V.rd, addUserDef, V.upd, restoreDefs, e1, e2]
  cases visits env l { s with userDefs := addSet s.userDefs name, line := n2 } <;> rfl

/-- Both end, or both with errors. -/
def EndAlike (R : S → S → Prop) : Except Err S → Except Err S → Prop
  | .ok u, .ok w => R u w
  | .error _, .error _ => True
  | _, _ => False

/-- An action after another. -/
def after (v : V) : Except Err S → Except Err S
  | .ok u => v u
  | .error e => .error e

theorem EndAlike.seq {Q R : S → S → Prop} {v v' : V} : ∀ {x x' : Except Err S}, EndAlike Q x x' → (∀ u w, Q u w → EndAlike R (v u) (v' w)) → EndAlike R (after v x) (after v' x')
  | .ok _, .ok _, h, k => k _ _ h
  | .error _, .error _, h, _ => h
  | .ok _, .error _, h, _ => h.elim
  | .error _, .ok _, h, _ => h.elim

/-- What is different. -/
def Enclosing (K : String → Prop) (U : Nat → Prop) (E : Prop) (name : String) (u w : S) : Prop :=
  ∃ u' ds y, w = { u' with userDefs := ds, seenYield := y } ∧ Beside K U E (Vermin.named name) u u' ∧ name ∈ ds ∧ ∀ x ∈ ds, x ∈ u.userDefs ∨ x = name

/-- The visits of the statements and of the function. -/
theorem visits_enclosed (hK : Apart K) (hp : env.cfg.printVisits = false) (ht : TargetsOk env) (he : E → ∀ x, x ∉ env.cfg.exclusions) (ho : Props.SetOrder env)
    (h : Encloses env name i a l) (hn : ¬ K name) (hf : ∀ k ∈ pre ++ l, Foreign K U E k) (ln d : Nat) (o : List String) :
    EndAlike (Enclosing K U E name) (visits env (pre ++ l) { S.init with line := ln, depth := d, out := o })
      (visits env (pre ++ [enclosed i a l]) { S.init with line := ln, depth := d, out := o }) := by
  have hm : ∀ l x, x ∈ env.order l → x ∈ l := fun l x hx => (ho l).mem_iff.mp hx
  rw [visits_append, visits_append]
  have h1 := (visitKids_abreast (b := S.init) (env := env) hK ht he hm pre fun k hk => hf k (by simp [hk])).visits.run _ _ (beside_init ln d o)
  have h1 : EndAlike (fun u w => Beside K U E S.init u w ∧ w = u) (visits env pre { S.init with line := ln, depth := d, out := o })
      (visits env pre { S.init with line := ln, depth := d, out := o }) := by
    change BesideOut K U E S.init (visits env pre _) (visits env pre _) at h1
    revert h1
    cases visits env pre { S.init with line := ln, depth := d, out := o } with
    | error e => exact id
    | ok s => exact fun h => ⟨h, rfl⟩
  show EndAlike _ (after (visits env l) (visits env pre _)) (after (visits env [enclosed i a l]) (visits env pre _))
  refine h1.seq fun s w ⟨h1, e⟩ => ?_
  rw [e] at h1 ⊢
  obtain ⟨n2, e3⟩ := enclosed_run hp h s
  have h2 := (visitKids_abreast (b := Vermin.named name) (env := env) hK ht he hm l fun k hk => hf k (by simp [hk])).visits.run _ _ (h1.named hn n2)
  rw [e3]
  change BesideOut K U E _ (visits env l _) (visits env l _) at h2
  have hgrow : ∀ u, visits env l s = .ok u → s.userDefs ⊆ u.userDefs := fun u hu =>
    each_keeps (Q := fun t => s.userDefs ⊆ t.userDefs) (fun c hc t w hs hw => by
      obtain ⟨_, h2, _⟩ := of_mem_visitKids hc
      rw [h2] at hw
      exact fun x hx => (visit_steps env c.node t w hw).defs _ (hs hx)) (fun _ h => h) hu
  revert h2
  cases hu : visits env l s with
  | error e =>
    cases visits env l { s with userDefs := addSet s.userDefs name, line := n2 } with
    | error e => exact fun _ => trivial
    | ok w => exact False.elim
  | ok u =>
    cases visits env l { s with userDefs := addSet s.userDefs name, line := n2 } with
    | error e => exact False.elim
    | ok w => exact fun h2 => ⟨w, _, _, rfl, h2, mem_addSet_self _ _, fun x hx => (mem_addSet.mp hx).imp (fun h => hgrow u hu h) id⟩

/-- The tours of the programs. -/
theorem tour_enclosed (hK : Apart K) (hp : env.cfg.printVisits = false) (ht : TargetsOk env) (he : E → ∀ x, x ∉ env.cfg.exclusions) (ho : Props.SetOrder env)
    (h : Encloses env name i a l) (hn : ¬ K name) (hf : ∀ k ∈ pre ++ l, Foreign K U E k) {j : Info} (hj : j.kind = .module) :
    EndAlike (fun u w => Retains u w ∧ Gains E { S.init with modules := u.userDefs, members := u.userDefs } u w)
      (tour env (.mk j (pre ++ l)) S.init) (tour env (.mk j (pre ++ [enclosed i a l])) S.init) := by
  obtain ⟨ln, hln⟩ := atLine_run j S.init
  have hv : ∀ ks, tour env (.mk j ks) S.init =
      after (fun t => afterVisitAll env { t with depth := t.depth - 1 }) (visits env ks { S.init with line := ln, depth := 1, out := [] }) := fun ks => by
    show V.seq (visit env (.mk j ks)) (afterVisitAll env) S.init = _
    have : visit env (.mk j ks) = gen env (.mk j ks) (visitKids env ks) := by
      rw [Props.visit_mk]
      unfold visitAlg
      rw [show (Node.mk j ks).kind = .module from hj]
      rfl
    rw [this]
    unfold gen
    rw [genEnter_quiet hp]
    show V.seq (V.seq (V.seq (V.seq (atLine j) _) (visits env ks)) _) _ S.init = _
    simp only [V.seq, hln, V.upd]
    show (match (match visits env ks { S.init with line := ln, depth := 1, out := [] } with
      | .ok t => _
      | .error e => _ : Except Err S) with
      | .ok t => _
      | .error e => _ : Except Err S) = after _ (visits env ks { S.init with line := ln, depth := 1, out := [] })
    cases visits env ks { S.init with line := ln, depth := 1, out := [] } <;> rfl
  rw [hv, hv]
  refine (visits_enclosed hK hp ht he ho h hn hf ln 1 []).seq (v := fun t => afterVisitAll env { t with depth := t.depth - 1 })
    (v' := fun t => afterVisitAll env { t with depth := t.depth - 1 }) fun u w hw => ?_
  obtain ⟨u', ds, y, rfl, hb, hd, hds⟩ := hw
  obtain ⟨o1, r1⟩ := Props.afterVisitAll_run env { u with depth := u.depth - 1 }
  obtain ⟨o2, r2⟩ := Props.afterVisitAll_run env { u' with userDefs := ds, seenYield := y, depth := u'.depth - 1 }
  dsimp only
  rw [r1]
  refine Eq.mpr (congrArg (EndAlike _ _) r2) ?_
  have cont : ∀ (l : List String) x, (!(env.order l).contains x) = true ↔ x ∉ l := fun l x => by
    rw [Bool.not_eq_true', ← Bool.not_eq_true, List.contains_iff_mem, (ho _).mem_iff]
  have new : ∀ x, K x → x ∉ u.userDefs → x ∉ ds := fun x hx hn' hx' => by
    rcases hds x hx' with h | rfl
    · exact hn' h
    · exact hn hx
  refine ⟨{ hb.toRetains with modules := fun m hm => ?_, members := fun m hm => ?_ },
    { flagsIn := fun e f hf => ?_, modulesIn := fun e f hf => ?_, membersIn := fun e f hf => ?_, kwargsIn := fun e f hf => ?_, decosIn := fun e f hf => ?_,
      strftimeIn := fun e f hf => ?_, bytesDirsIn := fun e f hf => ?_, typecodesIn := fun e f hf => ?_, errsIn := fun e f hf => ?_, encsIn := fun e f hf => ?_ }⟩
  · obtain ⟨h1, h2⟩ := List.mem_filter.mp hm
    exact List.mem_filter.mpr ⟨hb.modules m h1, (cont ds m).mpr (new m (hb.modulesKept m h1) ((cont _ m).mp h2))⟩
  · obtain ⟨h1, h2⟩ := List.mem_filter.mp hm
    exact List.mem_filter.mpr ⟨hb.members m h1, (cont ds m).mpr (new m (hb.membersKept m h1) ((cont _ m).mp h2))⟩
  · exact (hb.flagsIn e f hf).imp id nofun
  · obtain ⟨h1, h2⟩ := List.mem_filter.mp hf
    by_cases hu : f ∈ u.userDefs
    · exact .inr hu
    · exact .inl (List.mem_filter.mpr ⟨(hb.modulesIn e f h1).elim id nofun, (cont _ f).mpr hu⟩)
  · obtain ⟨h1, h2⟩ := List.mem_filter.mp hf
    by_cases hu : f ∈ u.userDefs
    · exact .inr hu
    · exact .inl (List.mem_filter.mpr ⟨(hb.membersIn e f h1).elim id nofun, (cont _ f).mpr hu⟩)
  · exact (hb.kwargsIn e f hf).imp id nofun
  · exact (hb.decosIn e f hf).imp id nofun
  · exact (hb.strftimeIn e f hf).imp id nofun
  · exact (hb.bytesDirsIn e f hf).imp id nofun
  · exact (hb.typecodesIn e f hf).imp id nofun
  · exact (hb.errsIn e f hf).imp id nofun
  · exact (hb.encsIn e f hf).imp id nofun
end
end Vermin
