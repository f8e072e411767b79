import Verif.Lemmas.Finally
import Verif.Lemmas.Pruned
/-
`continue` in `finally` blocks: exactly what is reported.
-/
namespace Vermin
open Py V Spec

/-! ### Soundness -/

/-- There is a `continue` that comes up in it, not in a loop between. -/
def Free (env : Env) (n : Node) : Prop := ∃ c, TouredNear env c n ∧ c.kind = .continue
/-- in a part of it -/
def FreeKid (env : Env) (n : Node) : Prop := ∃ k ∈ n.kids, Free env k
/-- a report for a part of it -/
def ReportsKid (env : Env) (n : Node) : Prop := ∃ k ∈ n.kids, ReportsContinue env k

theorem Spec.ReportsContinue.kid {env : Env} {n k : Node} (hk : k ∈ n.kids) (hm : ¬ Marked env n) : ReportsContinue env k → ReportsContinue env n :=
  fun ⟨t, f, c, h, h'⟩ => ⟨t, f, c, .kid hk hm h, h'⟩
theorem Free.kid {env : Env} {n k : Node} (hk : k ∈ n.kids) (hm : ¬ Marked env n) (hl : ¬ IsLoop n.kind) : Free env k → Free env n :=
  fun ⟨c, h, hc⟩ => ⟨c, .kid hk hm hl h, hc⟩

/-- Parts with what their visits report. -/
def KidsTell (env : Env) (n : Node) (cs : List Child) : Prop := ∀ c ∈ cs, c.node ∈ n.kids ∧ Cont (Free env c.node) (ReportsContinue env c.node) c.visit ∧
  Cont (FreeKid env c.node) (ReportsKid env c.node) c.gvisit

theorem KidsTell.gen {env : Env} {n m : Node} {cs : List Child} (h : KidsTell env n cs) : Cont (FreeKid env n) (ReportsKid env n) (gen env m cs) :=
  .gen (each_cont fun c hc => (h c hc).2.1.mono (fun hl => .inl ⟨_, (h c hc).1, hl⟩) fun hr => ⟨_, (h c hc).1, hr⟩)

theorem eachGvisit_cont {P E : Prop} : ∀ {cs : List Child}, (∀ c ∈ cs, Cont P E c.gvisit) → Cont P E (V.each Child.gvisit cs)
  | [], _ => .skip
  | c :: cs, h => .seq (h c (by simp)) (eachGvisit_cont fun d hd => h d (by simp [hd]))

theorem visitAlg_tells {env : Env} {n : Node} {cs : List Child} (hm : ¬ Marked env n) (h : KidsTell env n cs) :
    Cont (Free env n) (ReportsContinue env n) (visitAlg env n cs) := by
  have hr : ReportsKid env n → ReportsContinue env n := fun ⟨k, hk, hr⟩ => hr.kid hk hm
  by_cases hc : n.kind = .continue
  · unfold visitAlg
    rw [hc]
    refine fun s t hs ht => ?_
    have ht : (when (inFinally s) (found env .continueInFinally "continue in finally block" (from3 8) (.at n.line)) : V) s = .ok t := ht
    cases hi : inFinally s with
    | false =>
      rw [hi] at ht
      injection ht with ht
      subst ht
      exact ⟨rfl, .inl⟩
    | true =>
      rw [hi] at ht
      have ht : (found env .continueInFinally "continue in finally block" (from3 8) (.at n.line)) s = .ok t := ht
      obtain ⟨u, h1, h2⟩ := seq_run ht
      obtain ⟨o, rfl⟩ := verbosePrint_run h2
      rw [upd_run h1]
      exact ⟨rfl, fun _ => .inr (.inl ⟨rfl, n, .self _, hc⟩)⟩
  · by_cases ht : n.kind = .try
    · have hnl : ¬ IsLoop n.kind := by rw [ht]; exact id
      unfold visitAlg
      rw [ht]
      refine gate_cont (.seq ((Cont.final (P := ∃ f ∈ n.fields .finalbody, Free env f) (E := ReportsContinue env n) (each_cont fun c hc => ?_)).mono nofun ?_) ?_)
      · have hf := List.mem_filter.mp hc
        have hk := h c hf.1
        exact hk.2.1.mono (fun hl => .inl ⟨c.node, List.mem_filter.mpr ⟨hk.1, hf.2⟩, hl⟩) (ReportsContinue.kid hk.1 hm)
      · rintro (⟨f, hf, c, hd, hck⟩ | h)
        · exact ⟨n, f, c, .self _, ht, hm, hf, hd, hck⟩
        · exact h
      · exact h.gen.mono (fun ⟨k, hk, hl⟩ => .inl (hl.kid hk hm hnl)) hr
    · have hcl := closed_cont env n (FreeKid env n) (ReportsContinue env n) hc ht
      have hA : ∀ ev, Emits env n ev → Emits env n ev := fun _ h => h
      have hgen := h.gen (m := n) |>.mono (P' := FreeKid env n) .inl hr
      have hfor : (n.kind = .for ∨ n.kind = .asyncFor) → Cont (Free env n) (ReportsContinue env n) (handleFor env n cs) := fun hn =>
        gate_cont ((Cont.forLoop (((hcl.forTargets hA hn).seq (hcl.forDict hA hn)).seq hgen)).mono nofun id)
      by_cases hf : n.kind = .for
      · unfold visitAlg; rw [hf]; exact hfor (.inl hf)
      by_cases haf : n.kind = .asyncFor
      · unfold visitAlg; rw [haf]
        exact gate_cont (.seq (.seq (.flag nofun) (.print _ _ _ _ _ _ _)) (hfor (.inr haf)))
      by_cases hw : n.kind = .while
      · unfold visitAlg; rw [hw]
        exact gate_cont ((Cont.whileLoop hgen).mono nofun id)
      have hnl : ¬ IsLoop n.kind := by
        intro hx
        unfold IsLoop at hx
        split at hx
        · exact hf (by assumption)
        · exact haf (by assumption)
        · exact hw (by assumption)
        · exact hx
      have hcl := closed_cont env n (Free env n) (ReportsContinue env n) hc ht
      have hup : ∀ c ∈ cs, Cont (Free env n) (ReportsContinue env n) c.visit := fun c hc =>
        (h c hc).2.1.mono (fun hl => .inl (hl.kid (h c hc).1 hm hnl)) (ReportsContinue.kid (h c hc).1 hm)
      refine hcl.visitAlg (cs' := cs) hA ⟨.gen (each_cont hup), fun _ => .gen (each_cont fun c hc => hup c (List.mem_filter.mp hc).1),
        fun hn => absurd hn ht, fun {name} hn => eachGvisit_cont fun c hc => ?_⟩
      have hf := List.mem_filter.mp hc
      have hk := h c hf.1
      have hb : c.node ∈ n.fields .body := List.mem_filter.mpr ⟨hk.1, hf.2⟩
      exact hk.2.2.mono (fun ⟨j, hj, m, hl, hmk⟩ => .inl ⟨m, .again hn hm hb hj hl, hmk⟩)
        fun ⟨j, hj, t, f, m, hl, hrest⟩ => ⟨t, f, m, .again hn hm hb hj hl, hrest⟩

mutual
theorem visitNode_tells (env : Env) : ∀ n, Cont (Free env n) (ReportsContinue env n) (visitNode env n).1 ∧
    Cont (FreeKid env n) (ReportsKid env n) (visitNode env n).2
  | .mk i ks => by
    have hk : KidsTell env (.mk i ks) (visitKids env ks) := visitKids_tells env ks (.mk i ks) (fun k hk => hk)
    by_cases hm : Marked env (.mk i ks)
    · refine ⟨?_, ?_⟩
      · rw [show (visitNode env (.mk i ks)).1 = V.skip from marked_skip hm]
        exact .skip
      · unfold visitNode
        exact hk.gen
    · unfold visitNode
      exact ⟨visitAlg_tells hm hk, hk.gen⟩
theorem visitKids_tells (env : Env) : ∀ (ks : List Node) (n : Node), (∀ k ∈ ks, k ∈ n.kids) → KidsTell env n (visitKids env ks)
  | [], _, _ => by unfold visitKids; intro c hc; cases hc
  | k :: ks, n, hk => by
    unfold visitKids
    intro c hc
    rcases List.mem_cons.mp hc with rfl | hc
    · exact ⟨hk k (by simp), visitNode_tells env k⟩
    · exact visitKids_tells env ks n (fun j hj => hk j (by simp [hj])) c hc
end

/-! ### Completeness -/

theorem In.of_toured {env : Env} {m n : Node} (h : Toured env m n) : In m n := by
  induction h with
  | self n => exact .self n
  | kid hk _ _ ih => exact .kid hk ih
  | again _ _ hk hj _ ih => exact .kid (List.mem_filter.mp hk).1 (.kid hj ih)
theorem In.of_touredNear {env : Env} {m n : Node} (h : TouredNear env m n) : In m n := by
  induction h with
  | self n => exact .self n
  | kid hk _ _ _ ih => exact .kid hk ih
  | again _ _ hk hj _ ih => exact .kid (List.mem_filter.mp hk).1 (.kid hj ih)
theorem in_trans {a b c : Node} (h : In a b) (h' : In b c) : In a c := by
  induction h' with
  | self n => exact h
  | kid hk _ ih => exact .kid hk (ih h)

theorem statement_sub {m n : Node} (h : ContinueIsStatement n) (hm : In m n) : ContinueIsStatement m :=
  fun a k c ha => h a k c (in_trans ha hm)

/-- A part with a `continue` in it comes up along with the whole. -/
theorem visits_of {env : Env} {n k c : Node} (h : ContinueIsStatement n) (hk : k ∈ n.kids) (hm : ¬ Marked env n) (hc : In c k) (hck : c.kind = .continue) :
    Visits env n k := by
  refine ⟨hk, hm, fun ho => h n k c (.self _) hk (.inl ho) hc hck, ?_⟩
  rintro ⟨_, ha | ⟨_, hr⟩⟩
  · exact h n k c (.self _) hk (.inr (.inl ha)) hc hck
  · exact h n k c (.self _) hk (.inr (.inr hr)) hc hck

theorem genMk (env : Env) (n : Node) : genericVisit env n = gen env n (visitKids env n.kids) := by
  cases n with
  | mk i ks => unfold genericVisit visitNode; rfl
theorem genericVisit_growing (env : Env) (n : Node) : Growing (genericVisit env n) := by rw [genMk]; exact gen_growing env n

theorem gvisits_growing : ∀ {cs : List Child}, (∀ c ∈ cs, Growing c.gvisit) → Growing (V.each Child.gvisit cs)
  | [], _ => .skip
  | c :: cs, h => .seq (h c (.head _)) (gvisits_growing fun d hd => h d (.tail _ hd))

theorem gvisits_runs {R : S → S → Prop} (hR : Rel R) {g : V} {c : Child} : ∀ {cs : List Child}, c ∈ cs → (∀ c ∈ cs, Growing c.gvisit) →
    RunsIn R g c.gvisit → RunsIn R g (V.each Child.gvisit cs)
  | d :: ds, hc, hcs, hg => by
    rcases List.mem_cons.mp hc with rfl | h
    · exact .fst hR hg (gvisits_growing fun d hd => hcs d (.tail _ hd))
    · exact .snd hR (hcs d (.head _)) (gvisits_runs hR h (fun d hd => hcs d (.tail _ hd)) hg)

/-- The parts of the statements of a class come up once more. -/
theorem again_runs {R : S → S → Prop} (hR : Rel R) {env : Env} {n k j : Node} {name : String} (hn : n.kind = .classDef name) (hm : ¬ Marked env n)
    (hk : k ∈ n.fields .body) (hj : j ∈ k.kids) : RunsIn R (visit env j) (visit env n) := by
  have hline : n.line ∉ env.noLines := fun h => hm ⟨by rw [hn]; trivial, h⟩
  have hkf := List.mem_filter.mp hk
  have hc := closed_growing env n
  have hA : ∀ ev, Emits env n ev → True := fun _ _ => trivial
  rw [visitMk env n]
  unfold visitAlg
  rw [hn]
  refine .gate hline (.snd hR (.seq (.seq (.seq (.seq (hc.userDef trivial) (hc.nameResType trivial)) (hc.classDecos hA hn)) (hc.metaclassKw hA hn)) (gen_growing env n)) ?_)
  refine gvisits_runs hR (c := ⟨k, visit env k, genericVisit env k⟩) (List.mem_filter.mpr ⟨mem_visitKids hkf.1, hkf.2⟩) (fun c hc => ?_) ?_
  · rw [(of_mem_visitKids (List.mem_filter.mp hc).1).2.2]; exact genericVisit_growing env _
  · show RunsIn R (visit env j) (genericVisit env k)
    rw [genMk]
    exact gen_runs hR (c := ⟨j, visit env j, genericVisit env j⟩) (mem_visitKids hj) fun c hc => by
      rw [(of_mem_visitKids hc).2.1]; exact visit_growing env _

theorem RunsIn.trans {R : S → S → Prop} (hR : Rel R) {a b c : V} (h : RunsIn R a b) (h' : RunsIn R b c) : RunsIn R a c := fun s t hr => by
  obtain ⟨x, y, h1, h2, h3⟩ := h' s t hr
  obtain ⟨x', y', h1', h2', h3'⟩ := h x y h2
  exact ⟨x', y', hR.trans h1 h1', h2', hR.trans h3' h3⟩

theorem touredNear_runs {env : Env} {c n : Node} (h : TouredNear env c n) (hc : c.kind = .continue) (hg : ContinueIsStatement n) :
    RunsIn Stay (visit env c) (visit env n) := by
  induction h with
  | self n => exact .here .stay
  | kid hk hm hl hr ih =>
    exact (ih hc (statement_sub hg (.kid hk (.self _)))).trans .stay (kid_runs .stay (visits_of hg hk hm (In.of_touredNear hr) hc) (fun _ => stay_defs)
      (fun h => absurd h hl) (fun _ => stay_counts))
  | again hn hm hk hj hr ih =>
    exact (ih hc (statement_sub hg (.kid (List.mem_filter.mp hk).1 (.kid hj (.self _))))).trans .stay (again_runs .stay hn hm hk hj)

theorem toured_runs {env : Env} {t c n : Node} (h : Toured env t n) (hin : In c t) (hc : c.kind = .continue) (hg : ContinueIsStatement n) :
    RunsIn More (visit env t) (visit env n) := by
  induction h with
  | self n => exact .here .more
  | kid hk hm hr ih =>
    exact (ih hin (statement_sub hg (.kid hk (.self _)))).trans .more (kid_runs .more (visits_of hg hk hm (in_trans hin (In.of_toured hr)) hc) (fun _ => more_defs)
      (fun _ => more_loops) (fun _ => more_counts))
  | again hn hm hk hj hr ih =>
    exact (ih hin (statement_sub hg (.kid (List.mem_filter.mp hk).1 (.kid hj (.self _))))).trans .more (again_runs .more hn hm hk hj)

end Vermin
