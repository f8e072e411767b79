import Verif.Lemmas.Relax
import Verif.Lemmas.Layout
import Verif.Lemmas.Pruned
import Verif.Lemmas.Escapes
import Verif.Spec.Marks
/-
Visits of a program of which further statements are marked.
-/
namespace Vermin
open Py V Spec

/-- Further definitions at the end. -/
def Extends (l l' : List String) : Prop := ∃ ds, l' = l ++ ds ∧ ∀ x ∈ ds, x ∉ l
theorem Extends.refl (l : List String) : Extends l l := ⟨[], (List.append_nil l).symm, nofun⟩
theorem Extends.trans {l l' l'' : List String} (h : Extends l l') (k : Extends l' l'') : Extends l l'' := by
  obtain ⟨a, rfl, ha⟩ := h
  obtain ⟨b, rfl, hb⟩ := k
  refine ⟨a ++ b, List.append_assoc _ _ _, fun x hx => ?_⟩
  rcases List.mem_append.mp hx with hx | hx
  · exact ha x hx
  · exact fun hl => hb x hx (List.mem_append.mpr (.inl hl))
theorem Extends.eq {l l' : List String} (h : Extends l l') (hn : ∀ x ∈ l', x ∈ l) : l' = l := by
  obtain ⟨ds, rfl, hd⟩ := h
  cases ds with
  | nil => exact List.append_nil l
  | cons x ds => exact absurd (hn x (by simp)) (hd x (.head _))

/-- The state with another line, another last function and other definitions. -/
def S.left (s : S) (l : Nat) (f : Option String) (ds : List String) : S := { s with line := l, functionName := f, userDefs := ds }

/-- Nothing is done but finding something and defining names. -/
def Finds (v : V) : Prop := ∀ s t, v s = .ok t → ∃ y l f ds, t = (s.left l f ds).withOut y ∧ Fewer s.findings y ∧ Extends s.userDefs ds

namespace Finds
theorem skip : Finds skip := fun s t h => by
  injection h with h
  exact ⟨s.findings, s.line, s.functionName, s.userDefs, h.symm, .refl _, .refl _⟩
theorem seq {a b : V} (ha : Finds a) (hb : Finds b) : Finds (a ;; b) := fun s t h => by
  obtain ⟨u, h1, h2⟩ := seq_run h
  obtain ⟨y, l, f, ds, rfl, hy, hd⟩ := ha s u h1
  obtain ⟨z, l', f', ds', rfl, hz, hd'⟩ := hb _ t h2
  exact ⟨z, l', f', ds', rfl, hy.trans hz, hd.trans hd'⟩
theorem rd {f : S → V} (hf : ∀ s, Finds (f s)) : Finds (rd f) := fun s t h => hf s s t h
theorem when {c : Bool} {a : V} (ha : Finds a) : Finds (when c a) := by
  cases c with
  | true => exact ha
  | false => exact .skip
theorem ite {c : Prop} [Decidable c] {a b : V} (ha : Finds a) (hb : Finds b) : Finds (if c then a else b) := by
  split
  · exact ha
  · exact hb
theorem upd {f : S → S} (h : ∀ s, ∃ y, f s = s.withOut y ∧ Fewer s.findings y) : Finds (upd f) := fun s t hv => by
  obtain ⟨y, h1, h2⟩ := h s
  rw [upd_run hv, h1]
  exact ⟨y, s.line, s.functionName, s.userDefs, rfl, h2, .refl _⟩
theorem print (env : Env) (l msg ent line vs pl) : Finds (verbosePrint env l msg ent line vs pl) := fun s t h => by
  obtain ⟨o, rfl⟩ := verbosePrint_run h
  exact ⟨{ s.findings with out := s.out ++ o }, s.line, s.functionName, s.userDefs, rfl, by constructor <;> exact fun _ h => h, .refl _⟩
theorem flag (f : Flag) : Finds (setFlag f) := .upd fun s => by
  refine ⟨{ s.findings with flags := (s.set f).flags }, rfl, ?_⟩
  constructor <;> try exact fun _ h => h
  intro g hg
  show g ∈ (if s.flags.contains f then s.flags else s.flags ++ [f])
  split
  · exact hg
  · exact append_more g hg
theorem found {env : Env} {f : Flag} {msg vs line pl} : Finds (Vermin.found env f msg vs line pl) := .seq (.flag _) (.print _ _ _ _ _ _ _)
theorem userDef (x : String) : Finds (addUserDef x) := fun s t h => by
  rw [upd_run h]
  refine ⟨s.findings, s.line, s.functionName, addSet s.userDefs x, rfl, .refl _, ?_⟩
  unfold addSet
  split
  · exact .refl _
  · rename_i hc
    refine ⟨[x], rfl, fun y hy hm => hc ?_⟩
    rw [List.mem_singleton.mp hy] at hm
    exact List.contains_iff_mem.mpr hm
/-- What is changed before is restored after. -/
theorem around {a : V} {f g : S → S} (ha : Finds a) (hf : ∀ s, (f s).findings = s.findings) (hu : ∀ s, (f s).userDefs = s.userDefs)
    (h : ∀ s l fn ds y, ∃ fn', g (((f s).left l fn ds).withOut y) = (s.left l fn' ds).withOut y) : Finds (V.upd f ;; a ;; V.upd g) := fun s t hv => by
  obtain ⟨u, h1, h2⟩ := seq_run hv
  obtain ⟨v, h0, h1⟩ := seq_run h1
  have hs := upd_run h0
  subst hs
  obtain ⟨y, l, fn, ds, rfl, hy, hd⟩ := ha _ u h1
  rw [hf] at hy
  rw [hu] at hd
  obtain ⟨fn', e⟩ := h s l fn ds y
  rw [upd_run h2, e]
  exact ⟨y, l, fn', ds, rfl, hy, hd⟩
/-- A field is restored. -/
theorem restoring {a : V} {g : S → S → S} (ha : Finds a) (h : ∀ s l fn ds y, g s ((s.left l fn ds).withOut y) = (s.left l fn ds).withOut y) :
    Finds (V.rd fun s => a ;; V.upd (g s)) := fun s t hv => by
  obtain ⟨u, h1, h2⟩ := seq_run (show (a ;; V.upd (g s)) s = .ok t from hv)
  obtain ⟨y, l, fn, ds, rfl, hy, hd⟩ := ha s u h1
  rw [upd_run h2, h]
  exact ⟨y, l, fn, ds, rfl, hy, hd⟩
theorem scope {a : V} (ha : Finds a) : Finds (inScope a) := fun s t hv => by
  obtain ⟨u, h1, h2⟩ := seq_run (show (a ;; restoreDefs s.userDefs) s = .ok t from hv)
  obtain ⟨y, l, fn, ds, rfl, hy, hd⟩ := ha s u h1
  rw [upd_run h2]
  exact ⟨y, l, fn, s.userDefs, rfl, hy, .refl _⟩
theorem generic {env : Env} {m : Node} {a : V} (ha : Finds a) : Finds (genEnter env m ;; a ;; V.upd fun s => { s with depth := s.depth - 1 }) := fun s t hv => by
  obtain ⟨u, h1, h2⟩ := seq_run hv
  obtain ⟨v, h0, h1⟩ := seq_run h1
  obtain ⟨l0, o, rfl⟩ := genEnter_run h0
  obtain ⟨y, l, fn, ds, rfl, hy, hd⟩ := ha _ u h1
  rw [upd_run h2]
  exact ⟨y, l, fn, ds, rfl, ⟨hy.modules, hy.members, hy.flags, hy.kwargs, hy.decos, hy.errs, hy.encs⟩, hd⟩
end Finds

theorem closed_finds (env : Env) (n : Node) (hn : ¬ Unnamed n) :
    Closed env env.display n (fun _ => True) (fun v _ => Finds v) (fun ev => ¬ ev.teaches ∧ ¬ ev.directive) where
  skip := .skip
  seq ha hb := ha.seq hb
  excl _ := rfl
  feats _ := rfl
  init := rfl
  rdMods hf := .rd fun s => hf s s.findings rfl trivial
  raise _ := fun s t h => by cases h
  print _ _ _ _ _ _ _ := .print _ _ _ _ _ _ _
  flag _ := .flag _
  module {m} l c hf := by
    refine .rd fun s => .ite (.print _ _ _ _ _ _ _) (.ite (.print _ _ _ _ _ _ _) (.when (.upd fun s => ?_)))
    obtain ⟨d, hd⟩ := addLineCol_with { s with modules := s.modules ++ [m] } (.name m) l c
    rw [hd]
    exact ⟨{ s.findings with modules := s.modules ++ [m], lineCol := d }, rfl, by constructor <;> first | exact fun _ h => h | exact append_more⟩
  member {m} l c hf := by
    refine .rd fun s => .ite (.print _ _ _ _ _ _ _) (.ite (.print _ _ _ _ _ _ _) (.when (.upd fun s => ?_)))
    obtain ⟨d, hd⟩ := addLineCol_with { s with members := s.members ++ [m] } (.name m) l c
    rw [hd]
    exact ⟨{ s.findings with members := s.members ++ [m], lineCol := d }, rfl, by constructor <;> first | exact fun _ h => h | exact append_more⟩
  kwarg {f k} l hf := .rd fun s => .ite (.print _ _ _ _ _ _ _) (.ite (.print _ _ _ _ _ _ _) (.when (.upd fun s =>
    ⟨{ s.findings with kwargs := s.kwargs ++ [(f, k)], lineCol := Dict.set s.lineCol (.kw f k) (l, none) }, rfl, by constructor <;> first | exact fun _ h => h | exact append_more⟩)))
  deco {u} l hf := .rd fun s => .ite (.print _ _ _ _ _ _ _) (.ite (.print _ _ _ _ _ _ _) (.when (.upd fun s =>
    ⟨{ s.findings with userFuncDecos := s.userFuncDecos ++ [u], lineCol := Dict.set s.lineCol (.name u) (l, none) }, rfl, by constructor <;> first | exact fun _ h => h | exact append_more⟩)))
  strftime l hf := absurd trivial hf.2
  bytesDir l hf := absurd trivial hf.2
  typecode l c hf := absurd trivial hf.2
  errorHandler {c} l hf := .ite (.print _ _ _ _ _ _ _) (.upd fun s =>
    ⟨{ s.findings with codecsErr := s.codecsErr ++ [c], lineCol := Dict.set s.lineCol (Ent.ofConst c) (l, none) }, rfl, by constructor <;> first | exact fun _ h => h | exact append_more⟩)
  encoding {c} l hf := .ite (.print _ _ _ _ _ _ _) (.upd fun s =>
    ⟨{ s.findings with codecsEnc := s.codecsEnc ++ [c], lineCol := Dict.set s.lineCol (Ent.ofConst c) (l, none) }, rfl, by constructor <;> first | exact fun _ h => h | exact append_more⟩)
  userDef _ := .userDef _
  nameRes h := absurd trivial h.1
  nameResType h := absurd trivial h.1
  moduleAs h := absurd trivial h.1
  importMem h := absurd trivial h.1
  callScope {x} _ _ _ ha := Finds.around (f := fun s => { s with functionName := some x, fnStack := s.fnStack ++ [x] })
    (g := fun s => { s with functionName := s.fnStack.getLast?, fnStack := s.fnStack.dropLast }) ha (fun _ => rfl) (fun _ => rfl) fun s l fn ds y => by
      refine ⟨(s.fnStack ++ [x]).getLast?, ?_⟩
      simp only [S.withOut, S.left, List.dropLast_concat]
  pop h := absurd h hn
  yield h := absurd trivial h.1
  await h := absurd trivial h.1
  ellipsis h := absurd trivial h.1
  gen m _ _ ha := ha.generic
  inScope ha := .scope ha
  yieldScope ha := .restoring ha fun _ _ _ _ _ => rfl
  asyncScope _ _ ha := fun s t hv => by
    obtain ⟨u, h1, h2⟩ := seq_run hv
    obtain ⟨y, l, fn, ds, rfl, hy, hd⟩ := ((ha.seq .found).seq (.rd fun s' => .when .found)) s u h1
    rw [upd_run h2]
    exact ⟨y, l, fn, ds, rfl, hy, hd⟩
  compScope _ ha := fun s t hv => by
    obtain ⟨u, h1, h2⟩ := seq_run hv
    obtain ⟨y, l, fn, ds, rfl, hy, hd⟩ := (ha.seq (.rd fun s' => .when .found)) s u h1
    rw [upd_run h2]
    exact ⟨y, l, fn, ds, rfl, hy, hd⟩
  forScope _ ha hb hc := fun s t hv => by
    obtain ⟨u, h1, h2⟩ := seq_run hv
    have hs := upd_run h1
    subst hs
    obtain ⟨v, h3, h4⟩ := seq_run (show ((_ ;; _) ;; restoreDefs _) _ = .ok t from h2)
    obtain ⟨w, h5, h6⟩ := seq_run h3
    obtain ⟨y, l, fn, ds, rfl, hy, hd⟩ := ((ha.seq hb).seq hc) _ w h5
    have hv := upd_run h6
    subst hv
    rw [upd_run h4]
    exact ⟨y, l, fn, s.userDefs, rfl, hy, .refl _⟩
  whileScope _ ha := .around ha (fun _ => rfl) (fun _ => rfl) fun s l fn ds y => ⟨fn, rfl⟩
  tryScope _ ha hb := .seq (.around ha (fun _ => rfl) (fun _ => rfl) fun s l fn ds y => ⟨fn, rfl⟩) hb

mutual
theorem visitNode_finds {env : Env} : (n : Node) → Unlearnt env n → Finds (visitNode env n).1 ∧ Finds (visitNode env n).2
  | .mk i ks, h => by
    have hc := (closed_finds env (.mk i ks) (h _ (.self _)).1).toVisiting
    have hk := visitKids_finds (env := env) (.mk i ks) ks fun k hk m hm => h m (.kid hk hm)
    unfold visitNode
    exact ⟨hc.visitAlg (h _ (.self _)).2 (hc.kin hk), hc.generic _ hk⟩
theorem visitKids_finds {env : Env} (n : Node) : (ks : List Node) → (∀ k ∈ ks, Unlearnt env k) → Kids n (fun v _ => Finds v) (visitKids env ks) (visitKids env ks)
  | [], _ => .nil
  | k :: ks, h => by
    have h1 := visitNode_finds (env := env) k (h k (.head _))
    unfold visitKids
    exact .cons rfl h1.1 (fun _ => h1.2) (visitKids_finds n ks fun x hx => h x (.tail _ hx))
end

/-! ### The visit without some parts -/

/-- What a step leaves behind besides findings. -/
def settle (v : V) : V := fun s =>
  match v s with
  | .ok t => .ok { s with line := t.line, functionName := t.functionName }
  | .error _ => .ok s

open Classical in
mutual
/-- The visit without the parts `M`. -/
noncomputable def mixNode (env : Env) (M : Node → Prop) : Node → V × V
  | .mk i ks => (if M (.mk i ks) then settle (visit env (.mk i ks)) else visitAlg env (.mk i ks) (mixKids env M ks), gen env (.mk i ks) (mixKids env M ks))
noncomputable def mixKids (env : Env) (M : Node → Prop) : List Node → List Child
  | [] => []
  | k :: ks => ⟨k, (mixNode env M k).1, (mixNode env M k).2⟩ :: mixKids env M ks
end

theorem settle_relax {v : V} (hv : Relaxes False v v) (hf : Finds v) (hc : Confines (fun _ => False) v) : Relaxes False v (settle v) := fun s x hx => by
  have h := hv s x hx
  unfold settle
  revert h
  cases hs : v s with
  | error e => exact fun _ h => h.elim
  | ok t =>
    cases v (s.withOut x) with
    | error e => exact False.elim
    | ok t' =>
      rintro ⟨y, rfl, _⟩
      obtain ⟨z, l, f, ds, rfl, hz, hd⟩ := hf s t hs
      have he : ds = s.userDefs := hd.eq fun x hx => (hc s _ hs x hx).elim id False.elim
      subst he
      exact ⟨x, rfl, hx.trans hz⟩

theorem settle_follows {g : Layout} (v : V) : Follows g (settle v) skip := ⟨fun s l lc o => by
  unfold settle
  cases v s with
  | error e => exact ⟨l, lc, o, rfl⟩
  | ok t => exact ⟨l, lc, o, rfl⟩⟩

section
variable {env : Env} {M : Node → Prop} (ht : TargetsOk env)
include ht

theorem visiting_same (n : Node) : Visiting env env.display n (fun _ => True) (Relaxes False) (fun _ => True) :=
  visiting_relax (d := env.display) rfl (fun _ h => h) False.elim (fun _ h => h) (fun _ _ => rfl) (fun _ => rfl) ht ht n

mutual
theorem mixNode_relax : (n : Node) → (∀ k, In k n → M k → Silent env k) →
    Relaxes False (visitNode env n).1 (mixNode env M n).1 ∧ Relaxes False (visitNode env n).2 (mixNode env M n).2
  | .mk i ks, h => by
    have hc := visiting_same ht (.mk i ks)
    have hk := mixKids_relax (.mk i ks) ks fun k hk m hm => h m (.kid hk hm)
    have hg : Relaxes False (gen env (.mk i ks) (visitKids env ks)) (gen env (.mk i ks) (mixKids env M ks)) := hc.generic _ hk
    have ha : Relaxes False (visitAlg env (.mk i ks) (visitKids env ks)) (visitAlg env (.mk i ks) (mixKids env M ks)) := hc.visitAlg (fun _ _ => trivial) (hc.kin hk)
    have hv : Relaxes False (visit env (.mk i ks)) (visit env (.mk i ks)) :=
      visit_visiting (I := fun _ _ => True) (Q := fun _ => Relaxes False) (A := fun _ _ => True) (visiting_same ht) (fun _ _ _ => trivial) (fun _ _ _ _ _ h => h) _
    unfold mixNode
    refine ⟨?_, by unfold visitNode; exact hg⟩
    dsimp only
    split
    · rename_i hm
      exact settle_relax hv (visitNode_finds _ (h _ (.self _) hm).1).1 ((visitNode_confines _).1.mono fun x hx => (h _ (.self _) hm).2 x hx)
    · unfold visitNode; exact ha
theorem mixKids_relax (n : Node) : (ks : List Node) → (∀ k ∈ ks, ∀ m, In m k → M m → Silent env m) → Kids n (Relaxes False) (visitKids env ks) (mixKids env M ks)
  | [], _ => by unfold visitKids mixKids; exact .nil
  | k :: ks, h => by
    have h1 := mixNode_relax k (h k (.head _))
    unfold visitKids mixKids
    exact .cons rfl h1.1 (fun _ => h1.2) (mixKids_relax n ks fun x hx => h x (.tail _ hx))
end
end

section
variable {env : Env} {e : Site} {g : Layout} {M : Node → Prop} (hi : (env.on e).isInitFile = env.isInitFile) (hu : ∀ u v, g.uid u = g.uid v → u = v)
include hi hu

mutual
theorem mixNode_follows : (n : Node) → (∀ k, In k n → M k → Marked (env.on e) (k.moved g)) → (∀ k, In k n → ¬ M k → Markable k.kind → Agrees env e g k) →
    (∀ k, In k n → ∀ d ∈ k.fields .decoratorList, Agrees env e g d) →
    Follows g (mixNode env M n).1 (visitNode (env.on e) (n.moved g)).1 ∧ Follows g (mixNode env M n).2 (visitNode (env.on e) (n.moved g)).2
  | .mk i ks, h1, h2, h3 => by
    have hk := mixKids_follows ks (fun k hk m hm => h1 m (.kid hk hm)) (fun k hk m hm => h2 m (.kid hk hm)) (fun k hk m hm => h3 m (.kid hk hm))
    have hg : Follows g (gen env (.mk i ks) (mixKids env M ks)) (visitNode (env.on e) (Node.moved g (.mk i ks))).2 := by
      simp only [Node.moved, visitNode]
      exact gen_follows _ _ hk
    unfold mixNode
    refine ⟨?_, hg⟩
    dsimp only
    split
    · rename_i hm
      rw [show (visitNode (env.on e) (Node.moved g (.mk i ks))).1 = V.skip from marked_skip (h1 _ (.self _) hm)]
      exact settle_follows _
    · rename_i hm
      have := visitAlg_follows_of hi hu (.mk i ks) (h2 _ (.self _) hm) (h3 _ (.self _)) hk
      simp only [Node.moved] at this ⊢
      simp only [visitNode]
      exact this
theorem mixKids_follows : (ks : List Node) → (∀ k ∈ ks, ∀ m, In m k → M m → Marked (env.on e) (m.moved g)) →
    (∀ k ∈ ks, ∀ m, In m k → ¬ M m → Markable m.kind → Agrees env e g m) → (∀ k ∈ ks, ∀ m, In m k → ∀ d ∈ m.fields .decoratorList, Agrees env e g d) →
    Couples g (mixKids env M ks) (visitKids (env.on e) (movedAll g ks))
  | [], _, _, _ => by unfold mixKids; exact .nil
  | k :: ks, h1, h2, h3 => by
    have := mixNode_follows k (h1 k (.head _)) (h2 k (.head _)) (h3 k (.head _))
    unfold mixKids
    exact .cons (Node.moved_fld k) this.1 this.2 (mixKids_follows ks (fun x hx => h1 x (.tail _ hx)) (fun x hx => h2 x (.tail _ hx)) fun x hx => h3 x (.tail _ hx))
end
end

theorem afterVisitAll_relax {env : Env} (h : TargetsOk env) : Relaxes False (afterVisitAll env) (afterVisitAll env) := by
  refine .rd fun s x _ => .each (fun u => .rd fun s x _ => ?_) _
  exact .seq (.seq (.seq (.quiet (.each (fun _ => prints1 h _ _ _ _ _ _) _) (.each (fun _ => prints1 h _ _ _ _ _ _) _))
      (.upd fun s x hs => ⟨{ x with modules := x.modules.filter (· != u) }, rfl, filter_sub _ hs.modules, hs.members, hs.flags, hs.kwargs, hs.decos, hs.errs, hs.encs⟩))
      (.quiet (.each (fun _ => prints1 h _ _ _ _ _ _) _) (.each (fun _ => prints1 h _ _ _ _ _ _) _)))
      (.upd fun s x hs => ⟨{ x with members := x.members.filter (· != u) }, rfl, hs.modules, filter_sub _ hs.members, hs.flags, hs.kwargs, hs.decos, hs.errs, hs.encs⟩)
theorem afterVisitAll_follows {env : Env} {e : Site} {g : Layout} : Follows g (afterVisitAll env) (afterVisitAll (env.on e)) := by
  refine .rd fun s _ _ _ => .each (fun u => .rd fun s _ _ _ => ?_) _
  exact .seq (.seq (.seq (.each (fun _ => .print ..) _) (.act fun _ _ _ _ => rfl)) (.each (fun _ => .print ..) _)) (.act fun _ _ _ _ => rfl)

/-- A visit with further marks finds less. -/
theorem tour_marks {env : Env} {e : Site} {g : Layout} (ht : TargetsOk env) (hi : (env.on e).isInitFile = env.isInitFile) (hu : ∀ u v, g.uid u = g.uid v → u = v) (n : Node)
    {M : Node → Prop} (h0 : ∀ k, In k n → M k → Silent env k) (h1 : ∀ k, In k n → M k → Marked (env.on e) (k.moved g))
    (h2 : ∀ k, In k n → ¬ M k → Markable k.kind → Agrees env e g k) (h3 : ∀ k, In k n → ∀ d ∈ k.fields .decoratorList, Agrees env e g d)
    {s : S} (hs : tour env n S.init = .ok s) :
    ∃ y l lc o, tour (env.on e) (n.moved g) S.init = .ok ((s.withOut y).placed g l lc o) ∧ Fewer y s.findings := by
  have ha : Relaxes False (tour env n) ((mixNode env M n).1 ;; afterVisitAll env) := .seq (mixNode_relax ht n h0).1 (afterVisitAll_relax ht)
  have hb : Follows g ((mixNode env M n).1 ;; afterVisitAll env) (tour (env.on e) (n.moved g)) := .seq (mixNode_follows hi hu n h1 h2 h3).1 afterVisitAll_follows
  have ka := ha S.init S.init.findings (.refl _)
  have kb := hb.run S.init (1, none) [] []
  rw [S.withOut_self, hs] at ka
  rw [show S.init.placed g (1, none) [] [] = S.init from rfl] at kb
  revert ka kb
  cases ((mixNode env M n).1 ;; afterVisitAll env) S.init with
  | error x => exact fun h => h.elim
  | ok t =>
    rintro ⟨y, rfl, hy⟩
    cases tour (env.on e) (n.moved g) S.init with
    | error x => exact False.elim
    | ok t' =>
      rintro ⟨l, lc, o, rfl⟩
      exact ⟨y, l, lc, o, rfl, hy⟩

end Vermin
