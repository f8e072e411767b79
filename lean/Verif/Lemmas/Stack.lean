import Verif.Lemmas.Found
import Verif.Lemmas.Text
/-
The calls around a keyword argument.
-/
namespace Vermin
open Py V Spec

/-- The calls around are the same afterwards. -/
def Stays (v : V) : Prop := ∀ s t, v s = .ok t → t.fnStack = s.fnStack

theorem Stays.skip : Stays skip := fun s t h => by injection h with h; rw [h]
theorem Stays.seq {a b : V} (ha : Stays a) (hb : Stays b) : Stays (a ;; b) := fun s t h => by
  obtain ⟨u, h1, h2⟩ := seq_run h
  rw [hb u t h2, ha s u h1]
theorem Stays.rd {f : S → V} (hf : ∀ s, Stays (f s)) : Stays (rd f) := fun s t h => hf s s t h
theorem Stays.when {c : Bool} {a : V} (ha : Stays a) : Stays (when c a) := by
  cases c with
  | true => exact ha
  | false => exact .skip
theorem Stays.upd {f : S → S} (hf : ∀ s, (f s).fnStack = s.fnStack) : Stays (upd f) := fun s t h => by rw [upd_run h]; exact hf s
theorem Stays.print (env : Env) (l msg ent line vs pl) : Stays (verbosePrint env l msg ent line vs pl) := fun s t h => by
  obtain ⟨o, rfl⟩ := verbosePrint_run h
  rfl
theorem Stays.flag (f : Flag) : Stays (setFlag f) := .upd fun s => by unfold S.set; split <;> rfl
theorem Stays.inScope {a : V} (ha : Stays a) : Stays (inScope a) := .rd fun _ => .seq ha (.upd fun _ => rfl)

theorem closed_stays (env : Env) (n : Node) : Closed env env.display n (fun _ => True) (fun v _ => Named n → Stays v) (fun _ => True) where
  skip _ := .skip
  seq ha hb hn := (ha hn).seq (hb hn)
  excl _ := rfl
  feats _ := rfl
  init := rfl
  rdMods hf hn := .rd fun s => hf s s.findings rfl trivial hn
  raise _ _ := fun s t h => by cases h
  print _ _ _ _ _ _ _ _ := .print _ _ _ _ _ _ _
  flag _ _ := .flag _
  module {m} l c hf hn := by
    refine .rd fun s => ?_
    split
    · exact .print _ _ _ _ _ _ _
    · split
      · exact .print _ _ _ _ _ _ _
      · refine .when (.upd fun s => ?_)
        obtain ⟨d, hd⟩ := addLineCol_with { s with modules := s.modules ++ [m] } (.name m) l c
        rw [hd]
  member {m} l c hf hn := by
    refine .rd fun s => ?_
    split
    · exact .print _ _ _ _ _ _ _
    · split
      · exact .print _ _ _ _ _ _ _
      · refine .when (.upd fun s => ?_)
        obtain ⟨d, hd⟩ := addLineCol_with { s with members := s.members ++ [m] } (.name m) l c
        rw [hd]
  kwarg {f k} l hf hn := by
    refine .rd fun s => ?_
    split
    · exact .print _ _ _ _ _ _ _
    · split
      · exact .print _ _ _ _ _ _ _
      · exact .when (.upd fun s => rfl)
  deco {u} l hf hn := by
    refine .rd fun s => ?_
    split
    · exact .print _ _ _ _ _ _ _
    · split
      · exact .print _ _ _ _ _ _ _
      · exact .when (.upd fun s => rfl)
  strftime l hf _ := .upd fun s => rfl
  bytesDir l hf _ := .upd fun s => rfl
  typecode l c hf _ := .rd fun s => .when (.upd fun s => rfl)
  errorHandler {c} l hf _ := by
    unfold addErrorHandler
    split
    · exact .print _ _ _ _ _ _ _
    · exact .upd fun s => rfl
  encoding {c} l hf _ := by
    unfold addEncoding
    split
    · exact .print _ _ _ _ _ _ _
    · exact .upd fun s => rfl
  userDef _ _ := .upd fun s => rfl
  nameRes _ _ := .upd fun s => rfl
  nameResType _ _ := .upd fun s => rfl
  moduleAs _ _ := .upd fun s => rfl
  importMem _ _ := .upd fun s => rfl
  callScope {x a _} _ ha hn := by
    intro s t h
    obtain ⟨v, h1, h2⟩ := seq_run h
    obtain ⟨u, h0, h1⟩ := seq_run h1
    have h0 := upd_run h0
    subst h0
    have h3 := ha hn _ v h1
    rw [upd_run h2]
    show v.fnStack.dropLast = s.fnStack
    rw [h3]
    simp
  pop hu hn := absurd hu (hn n (.self n))
  yield hy _ := .upd fun s => rfl
  await hy _ := .upd fun s => rfl
  ellipsis _ _ := .upd fun s => rfl
  gen m a _ ha hn := by
    refine .seq (.seq (fun s t h => ?_) (ha hn)) (.upd fun s => rfl)
    obtain ⟨l, o, rfl⟩ := genEnter_run h
    rfl
  inScope ha hn := .inScope (ha hn)
  yieldScope {a _} ha hn := .rd fun s => (ha hn).seq (.upd fun s => rfl)
  asyncScope {a a' name} _ hf ha hn := .rd fun s => .seq (.seq (.seq (ha hn) (.seq (.flag _) (.print _ _ _ _ _ _ _)))
    (.rd fun s' => .when (.seq (.flag _) (.print _ _ _ _ _ _ _)))) (.upd fun s => rfl)
  compScope {a a' b} _ ha hn := .rd fun s => .seq (.seq (ha hn)
    (.rd fun s' => .when (.seq (.flag _) (.print _ _ _ _ _ _ _)))) (.upd fun s => rfl)
  forScope {a b c _ _ _} _ ha hb hc hn := .seq (.upd fun s => rfl) (.inScope (.seq (.seq (.seq (ha hn) (hb hn)) (hc hn)) (.upd fun s => rfl)))
  whileScope _ ha hn := .seq (.seq (.upd fun s => rfl) (ha hn)) (.upd fun s => rfl)
  tryScope _ ha hb hn := .seq (.seq (.seq (.upd fun s => rfl) (ha hn)) (.upd fun s => rfl)) (hb hn)

theorem visit_stays (env : Env) (n : Node) : Named n → Stays (visit env n) :=
  visit_closed (d := env.display) (I := fun _ _ => True) (Q := fun n v _ => Named n → Stays v) (A := fun _ _ => True) (closed_stays env) (fun _ _ _ => trivial)
    (fun _ _ hk _ _ h hn => h fun m hm => hn m (.kid hk hm)) n

theorem each_stays {env : Env} {l : List Node} (h : ∀ k ∈ l, Named k) : Stays (V.each Child.visit (visitKids env l)) := by
  induction l with
  | nil => exact .skip
  | cons k l ih => exact .seq (visit_stays env k (h k (.head _))) (ih fun k hk => h k (.tail _ hk))

section
variable {env : Env} {P : Facts} {p n : Node}

/-- The keyword argument is visited within the call. -/
theorem gen_keyword (hP : Keeps env p P) (hn : Named n) {kw : Node} (hkw : kw ∈ n.kids) {f : String} {s t : S} (hl : Known env P p n s) (hf : f ∈ s.fnStack)
    (h : gen env n (visitKids env n.kids) s = .ok t) :
    ∃ a b, More s a ∧ Known env P p kw a ∧ f ∈ a.fnStack ∧ visit env kw a = .ok b ∧ More b t := by
  obtain ⟨w, h1, h2⟩ := seq_run h
  obtain ⟨u, h3, h4⟩ := seq_run h1
  have hwt : More w t := by rw [upd_run h2]; exact Rel.more.grow { Grows.refl w with }
  have hlu : Known env P p n u ∧ f ∈ u.fnStack ∧ More s u := by
    obtain ⟨li, o, rfl⟩ := genEnter_run h3
    exact ⟨{ hl with }, hf, Rel.more.grow { Grows.refl s with }⟩
  obtain ⟨l₁, l₂, hks⟩ := List.append_of_mem hkw
  rw [hks, visitKids_append] at h4
  obtain ⟨a, b, h5, h6, h7⟩ := each_split h4
  have hla : Known env P p n a := (each_known hP (fun k hk => by rw [hks]; simp [hk]) u a hlu.1 h5).1
  have hs : a.fnStack = u.fnStack := each_stays (fun k hk m hm => hn m (.kid (by rw [hks]; simp [hk]) hm)) u a h5
  exact ⟨a, b, Rel.more.trans hlu.2.2 (Rel.more.grow (each_growing _ _ _ h5)), learnt_down hkw hla, by rw [hs]; exact hlu.2.1, h6, Rel.more.trans (Rel.more.grow (each_growing _ _ _ h7)) hwt⟩

/-- The call of what is spelled `f`. -/
theorem call_keyword (hP : Keeps env p P) (hn : Named n) (hm : n.line ∉ env.noLines) {kw e : Node} (hkw : kw ∈ n.kids) (hk : n.kind = .call)
    (he : n.field .func = some e) (hes : (∃ x c, e.kind = .name x c) ∨ ∃ a, e.kind = .attribute a) {s t : S} (hl : Known env P p n s)
    (h : visit env n s = .ok t) :
    ∃ u f a b, More s a ∧ Known env P p n u ∧ Spells u.moduleAs e f ∧ Known env P p kw a ∧ f ∈ a.fnStack ∧ visit env kw a = .ok b ∧ More b t := by
  have hc := closed_traced env P p n hP
  have hst := closed_stays env n
  have hgr := closed_growing env n
  have hA : ∀ ev, EmitsIn env (Known env P p n) n ev → At env p n ev := fun _ h => emitsIn_mono (fun _ h => h.toLearnt) h
  have hA' : ∀ ev, EmitsIn env (fun _ => True) n ev → (fun _ => True) ev := fun _ _ => trivial
  rw [visitMk env n] at h
  unfold visitAlg at h
  simp only [hk] at h
  rcases hes with ⟨x, c, hx⟩ | ⟨a, ha⟩
  · have hcn : CallsName n x := ⟨hk, by rw [he]; simp [Node.nameId, hx]⟩
    rw [Acting.visitCall_name env _ he hx] at h
    unfold gate at h
    rw [if_neg (by simpa [Env.isNoLine] using hm)] at h
    obtain ⟨w, h1, h2⟩ := seq_run h
    obtain ⟨u, h3, h4⟩ := seq_run h1
    have hwt : More w t := Rel.more.grow (growing_pop _ _ h2)
    have h3 := upd_run h3
    subst h3
    have hl1 : Known env P p n (s.push x) := learnt_push hl ⟨s, hl.toLearnt, hk, e, he, .inl ⟨c, hx⟩⟩
    obtain ⟨v, h5, h6⟩ := seq_run h4
    have htr : Traced env P p n (addMember env x (some n.line) (some n.col) ;; callCodecs env n x ;; callSpecial env n x ;; checkUnpacking env n) :=
      .seq (.seq (.seq (hc.member _ _ (.inr (.inr (.inl hcn)))) (hc.callCodecs hA hcn)) (hc.callSpecial hA hcn)) (hc.checkUnpacking hA)
    have hsv : Stays (addMember env x (some n.line) (some n.col) ;; callCodecs env n x ;; callSpecial env n x ;; checkUnpacking env n) :=
      .seq (.seq (.seq (hst.member _ _ trivial hn) (hst.callCodecs hA' hcn hn)) (hst.callSpecial hA' hcn hn)) (hst.checkUnpacking hA' hn)
    have hgv : Growing (addMember env x (some n.line) (some n.col) ;; callCodecs env n x ;; callSpecial env n x ;; checkUnpacking env n) :=
      .seq (.seq (.seq (hgr.member _ _ trivial) (hgr.callCodecs hA' hcn)) (hgr.callSpecial hA' hcn)) (hgr.checkUnpacking hA')
    have hlv := (htr _ v hl1 h5).1
    have hfv : x ∈ v.fnStack := by
      rw [hsv _ v h5]
      exact List.mem_append_right _ (.head _)
    obtain ⟨a, b, h7', h7, h8, h9, h10⟩ := gen_keyword hP hn hkw hlv hfv h6
    have h5' := Rel.more.grow (hgv _ v h5)
    have h11 : More s v := Rel.more.trans (show More s (s.push x) from Rel.more.grow { Grows.refl s with }) h5'
    exact ⟨s, x, a, b, Rel.more.trans h11 h7', hl, .inl ⟨c, hx⟩, h7, h8, h9, Rel.more.trans h10 hwt⟩
  · rw [Acting.visitCall_attr env _ he ha] at h
    unfold gate at h
    rw [if_neg (by simpa [Env.isNoLine] using hm)] at h
    obtain ⟨u, h1, h2⟩ := seq_run h
    have hlu := (hc.callAttrSpecial hA hk he ha s u hl h1).1
    have h11 : More s u := Rel.more.grow (hgr.callAttrSpecial hA' hk he ha s u h1)
    obtain ⟨f, hf⟩ := dottedAttr_ok (ms := u.moduleAs) ha
    replace h2 : V.lift (dottedAttr u.moduleAs e) _ u = .ok t := h2
    rw [hf] at h2
    replace hf := dottedAttr_reads hf
    obtain ⟨w, h1, h2⟩ := seq_run h2
    obtain ⟨u', h3, h4⟩ := seq_run h1
    have hwt : More w t := Rel.more.grow (growing_pop _ _ h2)
    have h3 := upd_run h3
    subst h3
    have hl1 : Known env P p n (u.push f) := learnt_push hlu ⟨u, hlu.toLearnt, hk, e, he, .inr ⟨⟨a, ha⟩, hf⟩⟩
    obtain ⟨v, h5, h6⟩ := seq_run h4
    have hcf : CallsFunction u n f := .inr ⟨hk, e, a, he, ha, hf⟩
    have htr : Traced env P p n (checkCodecsFunction env f n ;; V.when (decide (f = "array.array")) (typecodeArgs n 12) ;; checkUnpacking env n) := by
      refine .seq (.seq (hc.checkCodecsFunction hA hk hlu hcf) (hc.when (a' := typecodeArgs n 12) fun hx => hc.typecodeArgs hA hk ?_ _)) (hc.checkUnpacking hA)
      have hx := of_decide_eq_true hx
      exact .inr ⟨u, hlu, .inr ⟨hk, e, he, .inr ⟨⟨a, ha⟩, hx ▸ hf⟩⟩⟩
    have hsv : Stays (checkCodecsFunction env f n ;; V.when (decide (f = "array.array")) (typecodeArgs n 12) ;; checkUnpacking env n) := by
      refine .seq (.seq (hst.checkCodecsFunction (s := u) hA' hk trivial hcf hn) (.when ?_)) (hst.checkUnpacking hA' hn)
      exact hst.each (f' := fun a => V.opt a.strVal V.skip fun t => addTypecode t n.line (n.col + 12)) (fun a _ => hst.optSkip (k' := fun t => addTypecode t n.line (n.col + 12))
        fun t _ => hst.typecode _ _ trivial) hn
    have hgv : Growing (checkCodecsFunction env f n ;; V.when (decide (f = "array.array")) (typecodeArgs n 12) ;; checkUnpacking env n) := by
      refine .seq (.seq (hgr.checkCodecsFunction (s := u) hA' hk trivial hcf) (.when ?_)) (hgr.checkUnpacking hA')
      exact hgr.each (f' := fun a => V.opt a.strVal V.skip fun t => addTypecode t n.line (n.col + 12)) (fun a _ => hgr.optSkip (k' := fun t => addTypecode t n.line (n.col + 12))
        fun t _ => hgr.typecode _ _ trivial)
    have hlv := (htr _ v hl1 h5).1
    have hfv : f ∈ v.fnStack := by
      rw [hsv _ v h5]
      exact List.mem_append_right _ (.head _)
    obtain ⟨a', b, h7', h7, h8, h9, h10⟩ := gen_keyword hP hn hkw hlv hfv h6
    have h5' := Rel.more.grow (hgv _ v h5)
    have h12 : More u v := Rel.more.trans (show More u (u.push f) from Rel.more.grow { Grows.refl u with }) h5'
    exact ⟨u, f, a', b, Rel.more.trans h11 (Rel.more.trans h12 h7'), hlu, .inr ⟨⟨a, ha⟩, hf⟩, h7, h8, h9, Rel.more.trans h10 hwt⟩

/-- The keyword is recorded for every function around it. -/
theorem keyword_adds {kw : Node} {k : Option String} (hk : kw.kind = .keyword k) {f : String} {s t : S} (hl : Known env P p kw s) (hf : f ∈ s.fnStack)
    (hd : Undefined p (kwTarget s f)) (he : env.cfg.isExcludedKwarg (kwTarget s f) (kwText k) = false) (h : visit env kw s = .ok t) :
    (kwTarget s f, k) ∈ t.kwargs := by
  rw [visitMk env kw] at h
  unfold visitAlg at h
  simp only [hk] at h
  unfold visitKeyword V.rd at h
  dsimp only at h
  obtain ⟨u, h1, h2⟩ := seq_run h
  have hg : Growing (V.when (s.fnStack.any fun f => kwargsAdded env s (kwTarget s f) k) (gen env kw (visitKids env kw.kids))) := .when (gen_growing env kw)
  refine (hg u t h2).kwargs ?_
  have key : ∀ (l : List String) (a b : S), f ∈ l → a.userDefs = s.userDefs → V.each (fun f => addKwargs env (kwTarget s f) k s.line) l a = .ok b →
      (kwTarget s f, k) ∈ b.kwargs := by
    intro l
    induction l with
    | nil => intro a b hf; cases hf
    | cons g l ih =>
      intro a b hfl ha h
      obtain ⟨c, h3, h4⟩ := seq_run h
      rcases List.mem_cons.mp hfl with rfl | hfl
      · refine (Growing.each (fun x _ => (closed_growing env kw).kwarg _ trivial) c b h4).kwargs ?_
        unfold addKwargs V.rd at h3
        dsimp only at h3
        have hnd : a.userDefs.contains (kwTarget s f) = false := by rw [ha]; exact not_userDef hl hd
        rw [if_neg (by rw [hnd]; exact nofun), if_neg (by rw [he]; exact nofun)] at h3
        cases hc : a.kwargs.contains (kwTarget s f, k) with
        | true =>
          rw [hc] at h3
          injection h3 with h3
          subst h3
          exact List.contains_iff_mem.mp hc
        | false =>
          rw [hc] at h3
          simp only [Bool.not_false, V.when, if_true] at h3
          rw [upd_run h3]
          obtain ⟨d, hd⟩ := addLineCol_with { a with kwargs := a.kwargs ++ [(kwTarget s f, k)] } (.kw (kwTarget s f) k) (some s.line) none
          rw [hd]
          exact List.mem_append_right _ (.head _)
      · refine ih c b hfl ?_ h4
        unfold addKwargs V.rd at h3
        dsimp only at h3
        split at h3
        · obtain ⟨o, rfl⟩ := verbosePrint_run h3; exact ha
        · split at h3
          · obtain ⟨o, rfl⟩ := verbosePrint_run h3; exact ha
          · unfold V.when at h3
            split at h3
            · rw [upd_run h3]
              obtain ⟨d, hd⟩ := addLineCol_with { a with kwargs := a.kwargs ++ [(kwTarget s g, k)] } (.kw (kwTarget s g) k) (some s.line) none
              rw [hd]
              exact ha
            · injection h3 with h3; subst h3; exact ha
  exact key s.fnStack s u hf rfl h1

end
end Vermin
