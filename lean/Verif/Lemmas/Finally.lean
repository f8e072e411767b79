import Verif.Lemmas.Certain
import Verif.Spec.Finally
/-
`continue` in `finally` blocks: the counters of the visitor.
-/
namespace Vermin
open Py V Spec

/-- Loops counted when a `finally` block was entered are still counted. -/
def Nested (s : S) : Prop := ∀ p ∈ s.tryFinally, p.1 ≤ s.seenFor ∧ p.2 ≤ s.seenWhile

/-- The feature is found only if it was before, or in the current `finally` block if `P`, or if `E`. -/
def Cont (P E : Prop) (v : V) : Prop :=
  ∀ s t, Nested s → v s = .ok t → (t.seenFor, t.seenWhile, t.tryFinally) = (s.seenFor, s.seenWhile, s.tryFinally) ∧
    (.continueInFinally ∈ t.flags → .continueInFinally ∈ s.flags ∨ (inFinally s = true ∧ P) ∨ E)

theorem nested_of {s t : S} (h : Nested s) (hl : (t.seenFor, t.seenWhile, t.tryFinally) = (s.seenFor, s.seenWhile, s.tryFinally)) : Nested t := by
  simp only [Prod.mk.injEq] at hl
  unfold Nested
  rw [hl.1, hl.2.1, hl.2.2]
  exact h
theorem inFinally_of {s t : S} (hl : (t.seenFor, t.seenWhile, t.tryFinally) = (s.seenFor, s.seenWhile, s.tryFinally)) : inFinally t = inFinally s := by
  simp only [Prod.mk.injEq] at hl
  unfold inFinally
  rw [hl.1, hl.2.1, hl.2.2]

namespace Cont
variable {P E : Prop}
theorem mono {P' E' : Prop} {v : V} (h : Cont P E v) (hP : P → P' ∨ E') (hE : E → E') : Cont P' E' v := fun s t hs ht => by
  obtain ⟨h1, h2⟩ := h s t hs ht
  refine ⟨h1, fun hf => ?_⟩
  rcases h2 hf with h | ⟨h, hp⟩ | h
  · exact .inl h
  · exact (hP hp).elim (fun hp => .inr (.inl ⟨h, hp⟩)) fun he => .inr (.inr he)
  · exact .inr (.inr (hE h))
theorem skip : Cont P E skip := fun s t _ h => by injection h with h; subst h; exact ⟨rfl, .inl⟩
theorem seq {a b : V} (ha : Cont P E a) (hb : Cont P E b) : Cont P E (a ;; b) := fun s t hs h => by
  obtain ⟨u, h1, h2⟩ := seq_run h
  obtain ⟨ha1, ha2⟩ := ha s u hs h1
  obtain ⟨hb1, hb2⟩ := hb u t (nested_of hs ha1) h2
  refine ⟨hb1.trans ha1, fun hf => ?_⟩
  rcases hb2 hf with h | ⟨h, hp⟩ | h
  · exact ha2 h
  · exact .inr (.inl ⟨by rw [← inFinally_of ha1]; exact h, hp⟩)
  · exact .inr (.inr h)
theorem rd {f : S → V} (hf : ∀ s, Cont P E (f s)) : Cont P E (rd f) := fun s t hs h => hf s s t hs h
theorem upd {f : S → S} (h : ∀ s, ((f s).seenFor, (f s).seenWhile, (f s).tryFinally, (f s).flags) = (s.seenFor, s.seenWhile, s.tryFinally, s.flags)) :
    Cont P E (upd f) := fun s t _ ht => by
  rw [upd_run ht]
  have := h s
  simp only [Prod.mk.injEq] at this ⊢
  exact ⟨⟨this.1, this.2.1, this.2.2.1⟩, fun hf => .inl (by rw [← this.2.2.2]; exact hf)⟩
theorem same {f : S → S} (h : ∀ s, ((f s).seenFor, (f s).seenWhile, (f s).tryFinally, (f s).flags) = (s.seenFor, s.seenWhile, s.tryFinally, s.flags)) :
    Cont P E (V.upd f) := upd h
theorem when {c : Bool} {a : V} (ha : Cont P E a) : Cont P E (when c a) := by
  cases c with
  | true => exact ha
  | false => exact skip
theorem ite {c : Prop} [Decidable c] {a b : V} (ha : Cont P E a) (hb : Cont P E b) : Cont P E (if c then a else b) := by
  split
  · exact ha
  · exact hb
theorem raise (e : Err) : Cont P E (fun _ => .error e) := fun _ _ _ h => by cases h
theorem print (env : Env) (l msg ent line vs pl) : Cont P E (verbosePrint env l msg ent line vs pl) := fun s t _ h => by
  obtain ⟨o, rfl⟩ := verbosePrint_run h
  exact ⟨rfl, .inl⟩
theorem flag {f : Flag} (hf : f ≠ .continueInFinally) : Cont P E (setFlag f) := fun s t _ h => by
  rw [upd_run h]
  refine ⟨rfl, fun h => .inl ?_⟩
  unfold S.set at h
  dsimp only at h
  split at h
  · exact h
  · rcases List.mem_append.mp h with h | h
    · exact h
    · exact absurd (List.mem_singleton.mp h).symm hf
theorem enter (env : Env) (m : Node) : Cont P E (genEnter env m) := fun s t _ h => by
  obtain ⟨l, o, rfl⟩ := genEnter_run h
  exact ⟨rfl, .inl⟩
theorem gen {env : Env} {m : Node} {a : V} (ha : Cont P E a) : Cont P E (genEnter env m ;; a ;; V.upd fun s => { s with depth := s.depth - 1 }) :=
  .seq (.seq (.enter env m) ha) (.upd fun _ => rfl)
theorem scope {a : V} (ha : Cont P E a) : Cont P E (inScope a) := .rd fun _ => .seq ha (.upd fun _ => rfl)

/-- Within a loop it is not found in the current `finally` block. -/
theorem forLoop {a : V} (ha : Cont P E a) :
    Cont False E (V.upd (fun s => { s with seenFor := s.seenFor + 1 }) ;; inScope (a ;; V.upd fun s => { s with seenFor := s.seenFor - 1 })) := by
  intro s t hs h
  obtain ⟨v, h1, h2⟩ := seq_run h
  have h1 := upd_run h1
  subst h1
  obtain ⟨u, h1, h2⟩ := seq_run (show (a ;; (V.upd fun s => { s with seenFor := s.seenFor - 1 }) ;; restoreDefs s.userDefs) _ = .ok t from h2)
  have h2 := upd_run h2
  subst h2
  obtain ⟨v, h5, h2⟩ := seq_run h1
  have h2 := upd_run h2
  subst h2
  have hn : Nested { s with seenFor := s.seenFor + 1 } := fun p hp => ⟨Nat.le_succ_of_le (hs p hp).1, (hs p hp).2⟩
  obtain ⟨h3, h4⟩ := ha _ v hn h5
  simp only [Prod.mk.injEq] at h3 ⊢
  refine ⟨⟨by omega, h3.2⟩, fun hf => ?_⟩
  rcases h4 hf with h | ⟨h, _⟩ | h
  · exact .inl h
  · unfold inFinally at h
    dsimp only at h
    split at h
    · rename_i f w rest hr
      have := (hs (f, w) (by rw [hr]; exact .head _)).1
      simp only [Bool.and_eq_true, decide_eq_true_eq] at h
      omega
    · cases h
  · exact .inr (.inr h)
theorem whileLoop {a : V} (ha : Cont P E a) :
    Cont False E (V.upd (fun s => { s with seenWhile := s.seenWhile + 1 }) ;; a ;; V.upd fun s => { s with seenWhile := s.seenWhile - 1 }) := by
  intro s t hs h
  obtain ⟨u, h1, h2⟩ := seq_run h
  have h2 := upd_run h2
  subst h2
  obtain ⟨v, h0, h1⟩ := seq_run h1
  have h0 := upd_run h0
  subst h0
  have hn : Nested { s with seenWhile := s.seenWhile + 1 } := fun p hp => ⟨(hs p hp).1, Nat.le_succ_of_le (hs p hp).2⟩
  obtain ⟨h3, h4⟩ := ha _ u hn h1
  simp only [Prod.mk.injEq] at h3 ⊢
  refine ⟨⟨h3.1, by omega, h3.2.2⟩, fun hf => ?_⟩
  rcases h4 hf with h | ⟨h, _⟩ | h
  · exact .inl h
  · unfold inFinally at h
    dsimp only at h
    split at h
    · rename_i f w rest hr
      have := (hs (f, w) (by rw [hr]; exact .head _)).2
      simp only [Bool.and_eq_true, decide_eq_true_eq] at h
      omega
    · cases h
  · exact .inr (.inr h)
/-- In a `finally` block. -/
theorem final {a : V} (ha : Cont P E a) :
    Cont False (P ∨ E) (V.upd (fun s => { s with tryFinally := (s.seenFor, s.seenWhile) :: s.tryFinally }) ;; a ;;
      V.upd (fun s => { s with tryFinally := s.tryFinally.drop 1 })) := by
  intro s t hs h
  obtain ⟨v, h0, h1⟩ := seq_run h
  have h1 := upd_run h1
  subst h1
  obtain ⟨w, h00, h0⟩ := seq_run h0
  have h00 := upd_run h00
  subst h00
  have hn : Nested { s with tryFinally := (s.seenFor, s.seenWhile) :: s.tryFinally } := fun p hp => by
    rcases List.mem_cons.mp hp with rfl | hp
    · exact ⟨Nat.le_refl _, Nat.le_refl _⟩
    · exact hs p hp
  obtain ⟨h3, h4⟩ := ha _ v hn h0
  simp only [Prod.mk.injEq] at h3 ⊢
  refine ⟨⟨h3.1, h3.2.1, by rw [h3.2.2]; rfl⟩, fun hf => ?_⟩
  rcases h4 hf with h | ⟨_, h⟩ | h
  · exact .inl h
  · exact .inr (.inr (.inl h))
  · exact .inr (.inr (.inr h))
end Cont

theorem closed_cont (env : Env) (n : Node) (P E : Prop) (hc : n.kind ≠ .continue) (ht : n.kind ≠ .try) :
    Closed env env.display n (fun _ => True) (fun v _ => Cont P E v) (Emits env n) where
  skip := .skip
  seq ha hb := ha.seq hb
  excl _ := rfl
  feats _ := rfl
  init := rfl
  rdMods hf := .rd fun s => hf s s.findings rfl trivial
  raise _ := .raise _
  print l msg ent line vs pl _ := Cont.print env l msg ent line vs pl
  flag hf := .flag fun h => by subst h; exact hc hf
  module {m} l c _ := .rd fun _ => .ite (.print _ _ _ _ _ _ _) (.ite (.print _ _ _ _ _ _ _) (.when (.upd fun s => by
    obtain ⟨d, hd⟩ := addLineCol_with { s with modules := s.modules ++ [m] } (.name m) l c
    rw [hd])))
  member {m} l c _ := .rd fun _ => .ite (.print _ _ _ _ _ _ _) (.ite (.print _ _ _ _ _ _ _) (.when (.upd fun s => by
    obtain ⟨d, hd⟩ := addLineCol_with { s with members := s.members ++ [m] } (.name m) l c
    rw [hd])))
  kwarg _ _ := .rd fun _ => .ite (.print _ _ _ _ _ _ _) (.ite (.print _ _ _ _ _ _ _) (.when (.upd fun s => rfl)))
  deco _ _ := .rd fun _ => .ite (.print _ _ _ _ _ _ _) (.ite (.print _ _ _ _ _ _ _) (.when (.upd fun s => rfl)))
  strftime _ _ := .upd fun s => rfl
  bytesDir _ _ := .upd fun s => rfl
  typecode _ _ _ := .rd fun _ => .when (.upd fun s => rfl)
  errorHandler _ _ := .ite (.print _ _ _ _ _ _ _) (.upd fun s => rfl)
  encoding _ _ := .ite (.print _ _ _ _ _ _ _) (.upd fun s => rfl)
  userDef _ := .upd fun s => rfl
  nameRes _ := .upd fun s => rfl
  nameResType _ := .upd fun s => rfl
  moduleAs _ := .upd fun s => rfl
  importMem _ := .upd fun s => rfl
  callScope _ ha := .seq (.seq (.upd fun s => rfl) ha) (.upd fun s => rfl)
  pop _ := .upd fun s => rfl
  yield _ := .upd fun s => rfl
  await _ := .upd fun s => rfl
  ellipsis _ := .upd fun s => rfl
  gen m _ _ ha := .gen ha
  inScope ha := .scope ha
  yieldScope ha := .rd fun _ => .seq ha (.upd fun _ => rfl)
  asyncScope _ _ ha := .rd fun _ => .seq (.seq (.seq ha (.seq (.flag nofun) (.print _ _ _ _ _ _ _)))
    (.rd fun _ => .when (.seq (.flag nofun) (.print _ _ _ _ _ _ _)))) (.upd fun _ => rfl)
  compScope _ ha := .rd fun _ => .seq (.seq ha (.rd fun _ => .when (.seq (.flag nofun) (.print _ _ _ _ _ _ _)))) (.upd fun _ => rfl)
  forScope _ ha hb hc := (Cont.forLoop ((ha.seq hb).seq hc)).mono nofun id
  whileScope _ ha := (Cont.whileLoop ha).mono nofun id
  tryScope h _ _ := absurd h ht

/-! ### Soundness -/

/-- There is a `continue` in it about a loop outside. -/
def Loose (n : Node) : Prop := ∃ c, Direct c n ∧ c.kind = .continue
/-- There is one in a part of it. -/
def LooseKid (n : Node) : Prop := ∃ k ∈ n.kids, Loose k

theorem Loose.kid {n k : Node} (hn : ¬ IsLoop n.kind) (hk : k ∈ n.kids) : Loose k → Loose n :=
  fun ⟨c, h, hc⟩ => ⟨c, .kid hk (fun h => hn h.1) h, hc⟩
theorem ContinueInFinally.kid {n k : Node} (hk : k ∈ n.kids) : ContinueInFinally k → ContinueInFinally n :=
  fun ⟨t, f, c, h, h'⟩ => ⟨t, f, c, .kid hk h, h'⟩

/-- Kids with their results -/
def KidsCont (n : Node) (cs : List Child) : Prop := ∀ c ∈ cs, c.node ∈ n.kids ∧ Cont (Loose c.node) (ContinueInFinally c.node) c.visit ∧
  Cont (LooseKid c.node) (ContinueInFinally c.node) c.gvisit

theorem each_cont {P E : Prop} : ∀ {cs : List Child}, (∀ c ∈ cs, Cont P E c.visit) → Cont P E (V.each Child.visit cs)
  | [], _ => .skip
  | c :: cs, h => .seq (h c (by simp)) (each_cont fun d hd => h d (by simp [hd]))

theorem KidsCont.gen {env : Env} {n m : Node} {cs : List Child} (h : KidsCont n cs) : Cont (LooseKid n) (ContinueInFinally n) (gen env m cs) :=
  .gen (each_cont fun c hc => (h c hc).2.1.mono (fun hl => .inl ⟨_, (h c hc).1, hl⟩) (ContinueInFinally.kid (h c hc).1))

theorem KidsCont.kids {n : Node} {cs : List Child} {P : Prop} (h : KidsCont n cs) (hv : ∀ k ∈ n.kids, Loose k → P)
    (hg : (∃ name, n.kind = .classDef name) → ∀ k ∈ n.kids, LooseKid k → P) :
    Kids n (fun v _ => Cont P (ContinueInFinally n) v) cs cs := by
  induction cs with
  | nil => exact .nil
  | cons c cs ih =>
    have hc := h c (by simp)
    exact .cons rfl (hc.2.1.mono (fun hl => .inl (hv _ hc.1 hl)) (ContinueInFinally.kid hc.1))
      (fun hn => hc.2.2.mono (fun hl => .inl (hg hn _ hc.1 hl)) (ContinueInFinally.kid hc.1)) (ih fun d hd => h d (by simp [hd]))

theorem gate_cont {P E : Prop} {env : Env} {n : Node} {v : V} (h : Cont P E v) : Cont P E (gate env n v) := .ite .skip h

theorem visitAlg_cont {env : Env} {n : Node} {cs : List Child} (hl : NoClassLoops n) (h : KidsCont n cs) :
    Cont (Loose n) (ContinueInFinally n) (visitAlg env n cs) := by
  by_cases hc : n.kind = .continue
  · unfold visitAlg
    rw [hc]
    refine fun s t hs ht => ?_
    have ht : (when (inFinally s) (found env .continueInFinally "continue in finally block" (from3 8) (.at n.line)) : V) s = .ok t := ht
    cases hi : inFinally s with
    | false =>
      rw [hi] at ht
      injection ht with ht
      subst ht
      exact ⟨rfl, .inl⟩
    | true =>
      rw [hi] at ht
      have ht : (found env .continueInFinally "continue in finally block" (from3 8) (.at n.line)) s = .ok t := ht
      obtain ⟨u, h1, h2⟩ := seq_run ht
      obtain ⟨o, rfl⟩ := verbosePrint_run h2
      rw [upd_run h1]
      exact ⟨rfl, fun _ => .inr (.inl ⟨rfl, n, .self _, hc⟩)⟩
  · by_cases ht : n.kind = .try
    · unfold visitAlg
      rw [ht]
      refine gate_cont (.seq ((Cont.final (P := ∃ f ∈ n.fields .finalbody, Loose f) (E := ContinueInFinally n) (each_cont fun c hc => ?_)).mono nofun ?_) ?_)
      · have hm := List.mem_filter.mp hc
        have hk := h c hm.1
        exact hk.2.1.mono (fun hl => .inl ⟨c.node, List.mem_filter.mpr ⟨hk.1, hm.2⟩, hl⟩) (ContinueInFinally.kid hk.1)
      · rintro (⟨f, hf, c, hd, hck⟩ | h)
        · exact ⟨n, f, c, .self _, .inl ht, hf, hd, hck⟩
        · exact h
      · exact h.gen.mono (fun ⟨k, hk, hl⟩ => .inl (hl.kid (by rw [ht]; exact id) hk)) id
    · have hcl := closed_cont env n (LooseKid n) (ContinueInFinally n) hc ht
      have hA : ∀ ev, Emits env n ev → Emits env n ev := fun _ h => h
      have hfor : (n.kind = .for ∨ n.kind = .asyncFor) → Cont (Loose n) (ContinueInFinally n) (handleFor env n cs) := fun hn =>
        gate_cont ((Cont.forLoop (((hcl.forTargets hA hn).seq (hcl.forDict hA hn)).seq h.gen)).mono nofun id)
      by_cases hf : n.kind = .for
      · unfold visitAlg; rw [hf]; exact hfor (.inl hf)
      by_cases haf : n.kind = .asyncFor
      · unfold visitAlg; rw [haf]
        exact gate_cont (.seq (.seq (.flag nofun) (.print _ _ _ _ _ _ _)) (hfor (.inr haf)))
      by_cases hw : n.kind = .while
      · unfold visitAlg; rw [hw]
        exact gate_cont ((Cont.whileLoop h.gen).mono nofun id)
      have hnl : ¬ IsLoop n.kind := by
        intro hx
        unfold IsLoop at hx
        split at hx
        · exact hf (by assumption)
        · exact haf (by assumption)
        · exact hw (by assumption)
        · exact hx
      have hcl := closed_cont env n (Loose n) (ContinueInFinally n) hc ht
      refine hcl.visitAlg hA (hcl.kin (h.kids (fun k hk => Loose.kid hnl hk) ?_))
      rintro ⟨name, hn⟩ k hk ⟨j, hj, hl'⟩
      exact .kid hnl hk (.kid (hl n name k (.self _) hn hk) hj hl')

mutual
theorem visitNode_cont (env : Env) : ∀ n, NoClassLoops n → Cont (Loose n) (ContinueInFinally n) (visitNode env n).1 ∧
    Cont (LooseKid n) (ContinueInFinally n) (visitNode env n).2
  | .mk i ks, hl => by
    have hk : KidsCont (.mk i ks) (visitKids env ks) := visitKids_cont env ks (.mk i ks) (fun k hk => hk) hl
    unfold visitNode
    exact ⟨visitAlg_cont hl hk, hk.gen⟩
theorem visitKids_cont (env : Env) : ∀ (ks : List Node) (n : Node), (∀ k ∈ ks, k ∈ n.kids) → NoClassLoops n → KidsCont n (visitKids env ks)
  | [], _, _, _ => by unfold visitKids; intro c hc; cases hc
  | k :: ks, n, hk, hl => by
    unfold visitKids
    intro c hc
    rcases List.mem_cons.mp hc with rfl | hc
    · have hkn := hk k (by simp)
      exact ⟨hkn, visitNode_cont env k fun m name j hm => hl m name j (.kid hkn hm)⟩
    · exact visitKids_cont env ks n (fun j hj => hk j (by simp [hj])) hl c hc
end

theorem visit_cont (env : Env) (n : Node) (h : NoClassLoops n) : Cont (Loose n) (ContinueInFinally n) (visit env n) := (visitNode_cont env n h).1

/-! ### Completeness -/

/-- What is found only grows, in the same loops and `finally` blocks. -/
def Stay (s t : S) : Prop := Grows { s with userDefs := [], seenYield := 0, seenAwait := 0 } t
theorem Rel.stay : Rel Stay where
  trans {s t _} h k :=
    have h' : Grows { s with userDefs := [], seenYield := 0, seenAwait := 0 } { t with userDefs := [], seenYield := 0, seenAwait := 0 } :=
      { h with defs := (fun _ h => nomatch h), yields := Nat.le_refl _, awaits := Nat.le_refl _ }
    h'.trans k
  grow h := { h with defs := (fun _ h => nomatch h), yields := Nat.zero_le _, awaits := Nat.zero_le _ }
theorem stay_defs (s : S) (d : List String) : Stay s { s with userDefs := d } := { Grows.refl { s with userDefs := [] } with defs := (fun _ h => nomatch h), yields := Nat.zero_le _, awaits := Nat.zero_le _ }
theorem stay_counts (s : S) (y w : Nat) : Stay s { s with seenYield := y, seenAwait := w } :=
  { Grows.refl { s with userDefs := [], seenYield := y, seenAwait := w } with defs := (fun _ h => nomatch h), yields := Nat.zero_le _, awaits := Nat.zero_le _ }

theorem reachDirect_runs {env : Env} {m n : Node} (h : ReachDirect env m n) : RunsIn Stay (visit env m) (visit env n) := by
  induction h with
  | self n => exact .here .stay
  | kid hv hl _ ih =>
    intro s t h
    obtain ⟨a, b, h1, h2, h3⟩ := kid_runs .stay hv (fun _ => stay_defs) (fun h => absurd h hl) (fun _ => stay_counts) s t h
    obtain ⟨a', b', h1', h2', h3'⟩ := ih a b h2
    exact ⟨a', b', Rel.stay.trans h1 h1', h2', Rel.stay.trans h3' h3⟩

theorem try_sets_runs {env : Env} {t f c : Node} (ht : t.kind = .try) (hm : ¬ Marked env t) (hf : f ∈ t.fields .finalbody)
    (hd : RunsIn Stay (visit env c) (visit env f)) (hc : c.kind = .continue) : Sets env .continueInFinally t := by
  have hline : t.line ∉ env.noLines := fun h => hm ⟨by rw [ht]; trivial, h⟩
  refine visit_of ?_
  unfold visitAlg
  rw [ht]
  refine .gate hline (.fst .more ?_ (gen_growing env t))
  intro s u h
  obtain ⟨v, h0, h1⟩ := seq_run h
  have h1 := upd_run h1
  subst h1
  obtain ⟨w, h00, h0⟩ := seq_run h0
  have h00 := upd_run h00
  subst h00
  have hfm := List.mem_filter.mp hf
  have hrun : RunsIn Stay (visit env f) (V.each Child.visit (finalOf (visitKids env t.kids))) :=
    .each .stay (c := ⟨f, visit env f, genericVisit env f⟩) (List.mem_filter.mpr ⟨mem_visitKids hfm.1, hfm.2⟩) fun c hc => by
      rw [(of_mem_visitKids (List.mem_filter.mp hc).1).2.1]; exact visit_growing env _
  obtain ⟨a, b, h1, h2, h3⟩ := hrun _ v h0
  obtain ⟨a', b', h1', h2', h3'⟩ := hd a b h2
  have hs := (Rel.stay.trans h1 h1').loops
  simp only [Prod.mk.injEq] at hs
  have hin : inFinally a' = true := by
    unfold inFinally
    rw [hs.1, hs.2.1, hs.2.2]
    simp
  rw [visitMk env c] at h2'
  unfold visitAlg at h2'
  rw [hc] at h2'
  have h2' : (when (inFinally a') (found env .continueInFinally "continue in finally block" (from3 8) (.at c.line)) : V) a' = .ok b' := h2'
  rw [hin] at h2'
  have h2' : (found env .continueInFinally "continue in finally block" (from3 8) (.at c.line)) a' = .ok b' := h2'
  obtain ⟨x, hx, hp⟩ := seq_run h2'
  have hmore : ∀ {s t : S}, Stay s t → More s t := fun {s t} h =>
    { h with loops := rfl }
  refine ⟨a', x, ?_, hx, ?_⟩
  · exact { Rel.stay.trans h1 h1' with loops := rfl }
  · have hg : More x b' := Rel.more.grow (Growing.print env _ _ _ _ _ _ x b' hp)
    have : More x v := Rel.more.trans (Rel.more.trans hg (hmore h3')) (hmore h3)
    exact { this with loops := rfl }

theorem try_sets {env : Env} {t f c : Node} (ht : t.kind = .try) (hm : ¬ Marked env t) (hf : f ∈ t.fields .finalbody) (hd : ReachDirect env c f)
    (hc : c.kind = .continue) : Sets env .continueInFinally t := try_sets_runs ht hm hf (reachDirect_runs hd) hc

end Vermin
