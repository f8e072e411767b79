import Verif.Lemmas.Places
import Verif.Spec.Escapes
/-
The definitions that are left after the visit of a node.
-/
namespace Vermin
open Py V Spec

/-- No definitions but `D` are added. -/
def Confines (D : String → Prop) (v : V) : Prop := ∀ s t, v s = .ok t → ∀ x ∈ t.userDefs, x ∈ s.userDefs ∨ D x

namespace Confines
variable {D : String → Prop}

theorem skip : Confines D skip := fun s t h x hx => by injection h with h; rw [h]; exact .inl hx
theorem seq {a b : V} (ha : Confines D a) (hb : Confines D b) : Confines D (a ;; b) := fun s t h x hx => by
  obtain ⟨u, h1, h2⟩ := seq_run h
  exact (hb u t h2 x hx).elim (ha s u h1 x) .inr
theorem rd {f : S → V} (hf : ∀ s, Confines D (f s)) : Confines D (rd f) := fun s t h => hf s s t h
theorem when {c : Bool} {a : V} (ha : Confines D a) : Confines D (when c a) := by
  cases c with
  | true => exact ha
  | false => exact .skip
theorem ite {c : Prop} [Decidable c] {a b : V} (ha : Confines D a) (hb : Confines D b) : Confines D (if c then a else b) := by
  split
  · exact ha
  · exact hb
theorem upd {f : S → S} (h : ∀ s, (f s).userDefs = s.userDefs) : Confines D (upd f) := fun s t hv x hx => by
  rw [upd_run hv, h] at hx
  exact .inl hx
theorem print (env : Env) (l msg ent line vs pl) : Confines D (verbosePrint env l msg ent line vs pl) := fun s t h x hx => by
  obtain ⟨o, rfl⟩ := verbosePrint_run h
  exact .inl hx
theorem flag (f : Flag) : Confines D (setFlag f) := .upd fun s => by unfold S.set; split <;> rfl
theorem found {env : Env} {f : Flag} {msg vs line pl} : Confines D (Vermin.found env f msg vs line pl) := .seq (.flag _) (.print _ _ _ _ _ _ _)
theorem userDef {y : String} (h : D y) : Confines D (addUserDef y) := fun s t hv x hx => by
  rw [upd_run hv] at hx
  have hx : x ∈ addSet s.userDefs y := hx
  unfold addSet at hx
  split at hx
  · exact .inl hx
  · rcases List.mem_append.mp hx with hx | hx
    · exact .inl hx
    · rw [List.mem_singleton.mp hx]; exact .inr h
/-- Nothing leaves a scope. -/
theorem inScope (a : V) : Confines D (inScope a) := fun s t h x hx => by
  obtain ⟨u, _, h2⟩ := seq_run (show (a ;; restoreDefs s.userDefs) s = .ok t from h)
  rw [upd_run h2] at hx
  exact .inl hx
theorem mono {D' : String → Prop} {a : V} (h : Confines D a) (hd : ∀ x, D x → D' x) : Confines D' a := fun s t hv x hx => (h s t hv x hx).imp id (hd x)
theorem gate {env : Env} {n : Node} {a : V} (h : Confines D a) : Confines D (gate env n a) := .ite .skip h
theorem each {α : Type} {f : α → V} : ∀ {l : List α}, (∀ x ∈ l, Confines D (f x)) → Confines D (V.each f l)
  | [], _ => .skip
  | x :: _, h => .seq (h x (.head _)) (each fun y hy => h y (.tail _ hy))
theorem optSkip {α : Type} {o : Option α} {f : α → V} (h : ∀ v, o = some v → Confines D (f v)) : Confines D (V.opt o V.skip f) := by
  cases o with
  | none => exact .skip
  | some v => exact h v rfl
theorem generic {env : Env} {m : Node} {a : V} (h : Confines D a) : Confines D (genEnter env m ;; a ;; V.upd fun s => { s with depth := s.depth - 1 }) := by
  refine .seq (.seq (fun s t hv x hx => ?_) h) (.upd fun s => rfl)
  obtain ⟨l, o, rfl⟩ := genEnter_run hv
  exact .inl hx
end Confines

theorem closed_confines (env : Env) (n : Node) (D : String → Prop) :
    Closed env env.display n (fun _ => True) (fun v _ => Confines D v) (fun ev => ∀ x, ev = .define x → D x) where
  skip := .skip
  seq ha hb := ha.seq hb
  excl _ := rfl
  feats _ := rfl
  init := rfl
  rdMods hf := .rd fun s => hf s s.findings rfl trivial
  raise _ := fun s t h => by cases h
  print _ _ _ _ _ _ _ := .print _ _ _ _ _ _ _
  flag _ := .flag _
  module {m} l c hf := by
    refine .rd fun s => .ite (.print _ _ _ _ _ _ _) (.ite (.print _ _ _ _ _ _ _) (.when (.upd fun s => ?_)))
    obtain ⟨d, hd⟩ := addLineCol_with { s with modules := s.modules ++ [m] } (.name m) l c
    rw [hd]
  member {m} l c hf := by
    refine .rd fun s => .ite (.print _ _ _ _ _ _ _) (.ite (.print _ _ _ _ _ _ _) (.when (.upd fun s => ?_)))
    obtain ⟨d, hd⟩ := addLineCol_with { s with members := s.members ++ [m] } (.name m) l c
    rw [hd]
  kwarg {f k} l hf := .rd fun s => .ite (.print _ _ _ _ _ _ _) (.ite (.print _ _ _ _ _ _ _) (.when (.upd fun s => rfl)))
  deco {u} l hf := .rd fun s => .ite (.print _ _ _ _ _ _ _) (.ite (.print _ _ _ _ _ _ _) (.when (.upd fun s => rfl)))
  strftime l hf := .upd fun s => rfl
  bytesDir l hf := .upd fun s => rfl
  typecode l c hf := .rd fun s => .when (.upd fun s => rfl)
  errorHandler {c} l hf := .ite (.print _ _ _ _ _ _ _) (.upd fun s => rfl)
  encoding {c} l hf := .ite (.print _ _ _ _ _ _ _) (.upd fun s => rfl)
  userDef h := .userDef (h _ rfl)
  nameRes _ := .upd fun s => rfl
  nameResType _ := .upd fun s => rfl
  moduleAs _ := .upd fun s => rfl
  importMem _ := .upd fun s => rfl
  callScope _ ha := .seq (.seq (.upd fun s => rfl) ha) (.upd fun s => rfl)
  pop _ := .upd fun s => rfl
  yield _ := .upd fun s => rfl
  await _ := .upd fun s => rfl
  ellipsis _ := .upd fun s => rfl
  gen m a _ ha := ha.generic
  inScope _ := .inScope _
  yieldScope ha := .rd fun s => ha.seq (.upd fun s => rfl)
  asyncScope _ _ ha := .rd fun s => .seq (.seq (.seq ha .found) (.rd fun s' => .when .found)) (.upd fun s => rfl)
  compScope _ ha := .rd fun s => .seq (.seq ha (.rd fun s' => .when .found)) (.upd fun s => rfl)
  forScope _ _ _ _ := .seq (.upd fun s => rfl) (.inScope _)
  whileScope _ ha := .seq (.seq (.upd fun s => rfl) ha) (.upd fun s => rfl)
  tryScope _ ha hb := .seq (.seq (.seq (.upd fun s => rfl) ha) (.upd fun s => rfl)) hb

section
variable {env : Env}

/-- The definitions that the parts of a node leave. -/
def PartsEscape (env : Env) (n : Node) (x : String) : Prop := ∃ k ∈ n.kids, Escapes env false k x

theorem eachVisit_confines {D : String → Prop} : ∀ {l : List Node}, (∀ k ∈ l, Confines D (visit env k)) → Confines D (each Child.visit (visitKids env l))
  | [], _ => .skip
  | k :: l, h => .seq (h k (.head _)) (eachVisit_confines fun k hk => h k (.tail _ hk))
theorem eachGvisit_confines {D : String → Prop} : ∀ {l : List Node}, (∀ k ∈ l, Confines D (genericVisit env k)) → Confines D (each Child.gvisit (visitKids env l))
  | [], _ => .skip
  | k :: l, h => .seq (h k (.head _)) (eachGvisit_confines fun k hk => h k (.tail _ hk))

theorem visitAlg_confines {n : Node} (hm : ¬ Marked env n)
    (ih : ∀ k ∈ n.kids, Confines (Escapes env false k) (visit env k) ∧ Confines (PartsEscape env k) (genericVisit env k)) :
    Confines (Escapes env false n) (visitAlg env n (visitKids env n.kids)) := by
  have hc := closed_confines env n (Escapes env false n)
  have hA : (Scoped n.kind → IsFunction n) → ∀ ev, EmitsIn env (fun _ => True) n ev → ∀ x, ev = .define x → Escapes env false n x := fun hs ev he x hx => by
    subst hx; exact .own hm he hs
  have hA' : ∀ ev, EmitsIn env (fun _ => True) n ev → True := fun _ _ => trivial
  by_cases hs : Scoped n.kind
  · -- what is outside of the scope
    have hfun : ∀ {name : String}, DefinesFunction n name → Confines (Escapes env false n) (handleFunctionDef env n name (visitKids env n.kids)) := fun {name} hn => by
      have hA := hA fun _ => ⟨name, hn⟩
      exact .seq (.seq (.seq (.seq (.userDef (.own hm (.inl hn) fun _ => ⟨name, hn⟩)) (hc.dirFuncs hA hn)) (hc.funcDecos hA ⟨name, hn⟩)) (.inScope _)) (hc.funcAnns hA ⟨name, hn⟩)
    unfold visitAlg
    cases hn : n.kind with
    | functionDef name => exact .gate (.rd fun s => (hfun (.inl hn)).seq (.upd fun s => rfl))
    | asyncFunctionDef name => exact .gate (.rd fun s => .seq (.seq (.seq (hfun (.inr hn)) .found) (.rd fun s' => .when .found)) (.upd fun s => rfl))
    | lambda => exact .inScope _
    | exceptHandler name => exact .gate (.seq (.when .found) (.inScope _))
    | listComp => exact .inScope _
    | generatorExp => exact .inScope _
    | setComp => exact .seq .found (.inScope _)
    | dictComp => exact .seq .found (.inScope _)
    | «with» => exact .gate (.seq .found (.inScope _))
    | asyncWith => exact .gate (.seq .found (.inScope _))
    | «for» => exact .gate (.seq (.upd fun s => rfl) (.inScope _))
    | asyncFor => exact .gate (.seq .found (.gate (.seq (.upd fun s => rfl) (.inScope _))))
    | _ => rw [hn] at hs; exact hs.elim
  · have hA := hA fun h => (hs h).elim
    by_cases hu : n.kind = .annAssign ∧ env.cfg.evalAnnotations = false
    · obtain ⟨hn, he⟩ := hu
      unfold visitAlg
      simp only [hn]
      unfold visitAnnAssign
      rw [he]
      exact .gate (.seq (.seq (.seq (.seq (.seq (Confines.optSkip fun t ht => hc.addUserDefNode fun x hx y hy => by
          cases hy
          exact .own hm (.inr (.inr (.inr (.inr (.inl ⟨.inr (.inl hn), t, ht, hx⟩))))) fun h => (hs h).elim)
          (hc.addNameResAssign hA (by simp [hn]))) (.flag _)) (.flag _)) .found) (.optSkip fun a _ => .ite .found (.when .found)))
    · have hk : ∀ k ∈ n.kids, ¬ Unevaluated env n k := fun k _ hx => hx.2.elim (fun h => hu ⟨h, hx.1⟩) fun h => by
        obtain ⟨⟨x, h | h⟩, _⟩ := h <;> (rw [h] at hs; exact hs trivial)
      have hv : ∀ k ∈ n.kids, Confines (Escapes env false n) (visit env k) := fun k hx =>
        (ih k hx).1.mono fun x h => .part hm hx (hk k hx) hs nofun h
      refine hc.visitAlg hA (cs' := visitKids (env.show env.display) n.kids) { all := ?_, results := ?_, finals := ?_, bodies := ?_ }
      · exact (eachVisit_confines hv).generic
      · rintro ⟨x, h | h⟩ <;> (rw [h] at hs; exact (hs trivial).elim)
      · intro _
        unfold finalOf
        rw [visitKids_filter fun k => decide (k.fld = .finalbody)]
        exact eachVisit_confines fun k hx => hv k (List.mem_filter.mp hx).1
      · intro name hn
        unfold bodyOf
        rw [visitKids_filter fun k => decide (k.fld = .body)]
        refine eachGvisit_confines fun k hx => (ih k (List.mem_filter.mp hx).1).2.mono ?_
        rintro x ⟨j, hj, h⟩
        exact .again hm hn hx hj h

theorem visitNode_confines (n : Node) : Confines (Escapes env false n) (visit env n) ∧ Confines (PartsEscape env n) (genericVisit env n) := by
  have ih : ∀ k ∈ n.kids, Confines (Escapes env false k) (visit env k) ∧ Confines (PartsEscape env k) (genericVisit env k) := fun k hk =>
    have : sizeOf k < sizeOf n := sizeOf_in hk
    visitNode_confines k
  refine ⟨?_, ?_⟩
  · by_cases hm : Marked env n
    · rw [marked_skip hm]; exact .skip
    · rw [visitMk]; exact visitAlg_confines hm ih
  · have : genericVisit env n = gen env n (visitKids env n.kids) := by cases n; rfl
    rw [this]
    exact (eachVisit_confines fun k hk => (ih k hk).1.mono fun x h => ⟨k, hk, h⟩).generic
termination_by sizeOf n

/-- Definitions that outlast the node are made. -/
theorem escapes_runs {n : Node} {x : String} (h : Escapes env true n x) {s t : S} (hv : visit env n s = .ok t) : x ∈ t.userDefs := by
  induction h generalizing s t with
  | @own n x hm hd hs =>
    have key : Leaves env n x := by
      have no : Scoped n.kind → (∀ f, n.kind ≠ .functionDef f) → (∀ f, n.kind ≠ .asyncFunctionDef f) → False := fun h h1 h2 => by
        obtain ⟨f, h | h⟩ := hs h
        · exact h1 f h
        · exact h2 f h
      rcases hd with h | h | ⟨h, a, ha, y, hy⟩ | ⟨h, t, ht, hb⟩ | ⟨h, t, ht, hb⟩ | ⟨h, -⟩ | ⟨h, -⟩ | ⟨h, -⟩ | h | h
      · exact .inl ⟨n, .self n, hm, .function h⟩
      · exact .inl ⟨n, .self n, hm, .class h⟩
      · rcases h with h | ⟨m, h⟩
        · exact .inl ⟨n, .self n, hm, .import h ha hy⟩
        · exact .inl ⟨n, .self n, hm, .importFrom h ha hy⟩
      · exact .inl ⟨n, .self n, hm, .assign h ht hb⟩
      · exact .inl ⟨n, .self n, hm, .single h ht hb⟩
      · rcases h with h | h <;> exact (no (by rw [h]; trivial) (by rw [h]; nofun) (by rw [h]; nofun)).elim
      · rcases h with h | h <;> exact (no (by rw [h]; trivial) (by rw [h]; nofun) (by rw [h]; nofun)).elim
      · rcases h with h | h | h | h <;> exact (no (by rw [h]; trivial) (by rw [h]; nofun) (by rw [h]; nofun)).elim
      · exact (no (by rw [h]; trivial) (by rw [h]; nofun) (by rw [h]; nofun)).elim
      · exact .inr ⟨h.1, .inr (.inr (.inr (.inr (.inr (.inr (.inr (.inr (.inr h))))))))⟩
    exact leaves_mem key hv
  | @part n k x hm hk hu hs ho _ ih =>
    obtain ⟨a, b, _, h2, h3⟩ := reachFlat_runs (.kid ⟨hk, hm, ho rfl, hu⟩ hs (.self k)) s t hv
    have := ih h2
    exact h3.defs this
  | @again n b k name x hm hn hb hk _ ih =>
    rw [visitMk] at hv
    unfold visitAlg at hv
    simp only [hn] at hv
    unfold visitClassDef gate at hv
    rw [if_neg fun h => hm ⟨by rw [hn]; trivial, by simpa [Env.isNoLine] using h⟩] at hv
    obtain ⟨u, _, hv⟩ := seq_run hv
    unfold bodyOf at hv
    rw [visitKids_filter fun k => decide (k.fld = .body)] at hv
    have hr : RunsIn Flat (visit env k) (each Child.gvisit (visitKids env (n.fields .body))) := by
      refine .eachOf .flat (mem_visitKids hb) ?_ fun c hc => ?_
      · show RunsIn Flat (visit env k) (genericVisit env b)
        rw [show genericVisit env b = gen env b (visitKids env b.kids) by cases b; rfl]
        exact .fst .flat (.snd .flat (fun s t h => by obtain ⟨l, o, rfl⟩ := genEnter_run h; exact { Grows.refl s with })
          (.each .flat (mem_visitKids hk) fun c hc => (of_mem_visitKids hc).2.1 ▸ visit_growing env c.node)) (growing_upd fun s => { Grows.refl s with })
      · rw [(of_mem_visitKids hc).2.2, show genericVisit env c.node = gen env c.node (visitKids env c.node.kids) by cases c.node; rfl]
        exact gen_growing env c.node
    obtain ⟨a, d, _, h2, h3⟩ := hr u t hv
    have := ih h2
    exact h3.defs this
end
end Vermin
