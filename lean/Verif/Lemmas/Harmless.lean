import Verif.Lemmas.Layout
import Verif.Lemmas.Pruned
import Verif.Spec.Harmless
/-
Harmless statements change nothing but the output and the line visited last.
-/
namespace Vermin
open Py V Spec

/-- Actions that change the output and the line only. -/
def Idle (v : V) : Prop := ∀ s, ∃ l o, v s = .ok { s with line := l, out := o }

namespace Idle
theorem skip : Idle skip := fun s => ⟨s.line, s.out, rfl⟩
theorem seq {a b : V} (ha : Idle a) (hb : Idle b) : Idle (a ;; b) := fun s => by
  obtain ⟨l, o, h⟩ := ha s
  obtain ⟨l', o', h'⟩ := hb { s with line := l, out := o }
  refine ⟨l', o', ?_⟩
  show V.seq a b s = _
  unfold V.seq
  rw [h]
  exact h'
theorem each {α : Type} {f : α → V} : ∀ {l : List α}, (∀ x ∈ l, Idle (f x)) → Idle (V.each f l)
  | [], _ => skip
  | x :: l, h => seq (h x (by simp)) (each fun y hy => h y (by simp [hy]))
theorem when {c : Bool} {a : V} (h : Idle a) : Idle (V.when c a) := by
  cases c with
  | true => exact h
  | false => exact skip
theorem gate {env : Env} {n : Node} {a : V} (h : Idle a) : Idle (gate env n a) := by
  unfold Vermin.gate
  split
  · exact skip
  · exact h
/-- A counter is raised and lowered. -/
theorem around {f h : S → S} {a : V} (ha : Idle a) (hf : ∀ s l o, ∃ l' o', h { f s with line := l, out := o } = { s with line := l', out := o' }) :
    Idle (upd f ;; a ;; upd h) := fun s => by
  obtain ⟨l, o, e⟩ := ha (f s)
  obtain ⟨l', o', e'⟩ := hf s l o
  refine ⟨l', o', ?_⟩
  show (match V.seq (upd f) a s with | .ok s => _ | .error e => _) = _
  have : V.seq (upd f) a s = .ok { f s with line := l, out := o } := e
  rw [this]
  exact congrArg Except.ok e'

theorem gen {env : Env} {n : Node} {cs : List Child} (h : ∀ c ∈ cs, Idle c.visit) : Idle (gen env n cs) := fun s => by
  obtain ⟨l, o, he⟩ : ∃ l o, genEnter env n s = .ok { s with line := l, depth := s.depth + 1, out := o } := by
    have hn : ∀ msg, Idle (nprintV env msg) := fun msg => .when fun s => ⟨s.line, _, rfl⟩
    have hw : Idle (V.when env.cfg.printVisits
        (V.rd fun s => nprintV env (String.ofList ((List.replicate s.depth "| ".toList).flatten) ++ env.dump n))) := .when fun s => hn _ s
    obtain ⟨l0, h0⟩ : ∃ l, (V.opt n.info.line V.skip (fun l => upd fun s => { s with line := l }) ;; upd fun s => { s with depth := s.depth + 1 } : V) s =
        .ok { s with line := l, depth := s.depth + 1 } := by
      cases n.info.line <;> exact ⟨_, rfl⟩
    obtain ⟨l, o, h1⟩ := hw { s with line := l0, depth := s.depth + 1 }
    refine ⟨l, o, ?_⟩
    unfold genEnter
    show V.seq (V.seq _ _) _ s = _
    rw [V.seq, h0]
    exact h1
  obtain ⟨l', o', h'⟩ := each (f := Child.visit) h { s with line := l, depth := s.depth + 1, out := o }
  refine ⟨l', o', ?_⟩
  show V.seq (V.seq (genEnter env n) _) _ s = _
  unfold V.seq
  rw [he]
  dsimp only
  rw [h']
  rfl

theorem follows {g : Layout} {v : V} (h : Idle v) : Follows g V.skip v := ⟨fun s l lc o => by
  obtain ⟨l', o', e⟩ := h (s.placed g l lc o)
  rw [e]
  exact ⟨(l', l.2), lc, o', rfl⟩⟩
end Idle

theorem alg_idle {env : Env} {n : Node} {cs : List Child} (hn : HarmlessKind n.kind) (hk : ∀ k ∈ n.kids, HarmlessKind k.kind) (hc : ∀ c ∈ cs, Idle c.visit) :
    Idle (visitAlg env n cs) := by
  have hg : Idle (gen env n cs) := .gen hc
  have hd : (∃ c, n.kind = .tuple c) ∨ (∃ c, n.kind = .list c) → Idle (visitDisplay env n cs) := by
    intro h
    refine .seq ?_ hg
    have : unpacks n = false := by
      have he : (n.fields .elts).any isValidStarUnpack = false := by
        rw [List.any_eq_false]
        intro x hx
        have := hk x (List.mem_filter.mp hx).1
        unfold isValidStarUnpack
        cases hk : x.kind <;> rw [hk] at this <;> first | exact absurd this id | simp
      unfold unpacks
      rcases h with ⟨c, h⟩ | ⟨c, h⟩ <;> rw [h] <;> exact he
    unfold checkUnpacking
    rw [this]
    exact .skip
  unfold visitAlg
  cases hi : n.kind <;> rw [hi] at hn <;> first
    | exact absurd hn id
    | exact .skip
    | exact hg
    | exact Idle.gate hg
    | skip
  case op o =>
    show Idle (visitOp env n o cs)
    cases o <;> first
      | exact absurd rfl hn
      | exact .skip
      | exact hg
  case name x c =>
    show Idle (visitName env x)
    unfold visitName
    rw [if_neg hn.1, decide_eq_false (by rintro (h | h); exact hn.2.1 h; exact hn.2.2 h)]
    exact .skip
  case const c =>
    show Idle (visitConstant env n c)
    cases c <;> first
      | exact absurd hn id
      | exact .skip
  case tuple c => exact hd (.inl ⟨c, hi⟩)
  case list c => exact hd (.inr ⟨c, hi⟩)
  case «while» =>
    refine Idle.gate (.around hg fun s l o => ⟨l, o, ?_⟩)
    simp

mutual
theorem visitNode_idle {env : Env} : (n : Node) → Harmless n → Idle (visitNode env n).1 ∧ Idle (visitNode env n).2
  | .mk i ks, h => by
    have hk := kids_idle (env := env) ks fun k hk m hm => h m (.kid hk hm)
    exact ⟨alg_idle (h _ (.self _)) (fun k hk => h k (.kid hk (.self k))) hk, .gen hk⟩
theorem kids_idle {env : Env} : (ks : List Node) → (∀ k ∈ ks, Harmless k) → ∀ c ∈ visitKids env ks, Idle c.visit
  | [], _ => fun c hc => nomatch hc
  | k :: ks, h => fun c hc => by
    have h1 := visitNode_idle (env := env) k (h k (by simp))
    rcases List.mem_cons.mp hc with rfl | hc
    · exact h1.1
    · exact kids_idle ks (fun k hk => h k (by simp [hk])) c hc
end

/-- What the methods for statements with blocks look at of a node itself is not in its blocks. -/
theorem alg_blocks {env : Env} (hp : env.cfg.printVisits = false) {i : Info} {ks ks' : List Node} (hc : Compound i.kind)
    (hfields : ∀ f, isBlock f = false → (ks'.filter fun k => decide (k.fld = f)) = ks.filter fun k => decide (k.fld = f))
    (hfield : ∀ f, isBlock f = false → (ks'.find? fun k => decide (k.fld = f)) = ks.find? fun k => decide (k.fld = f)) (cs : List Child) :
    visitAlg env (.mk i ks') cs = visitAlg env (.mk i ks) cs ∧ gen env (.mk i ks') cs = gen env (.mk i ks) cs := by
  have hgen : gen env (.mk i ks') cs = gen env (.mk i ks) cs := by
    unfold gen
    rw [genEnter_same hp (n := .mk i ks) (m := .mk i ks') rfl]
  have hfs : ∀ f, isBlock f = false → (Node.mk i ks').fields f = (Node.mk i ks).fields f := hfields
  have hf : ∀ f, isBlock f = false → (Node.mk i ks').field f = (Node.mk i ks).field f := hfield
  refine ⟨?_, hgen⟩
  have hg : ∀ v, gate env (.mk i ks') v = gate env (.mk i ks) v := fun v => rfl
  have hfd : ∀ name, handleFunctionDef env (.mk i ks') name cs = handleFunctionDef env (.mk i ks) name cs := by
    intro name
    unfold handleFunctionDef
    have h1 : dirFuncs env (.mk i ks') name = dirFuncs env (.mk i ks) name := by
      unfold dirFuncs
      rw [hf .args rfl]
      rfl
    have h2 : funcDecos env (.mk i ks') = funcDecos env (.mk i ks) := by
      unfold funcDecos decoLine checkRelaxed checkUserFuncDecos
      rw [hfs .decoratorList rfl]
    have h3 : funcAnns env (.mk i ks') = funcAnns env (.mk i ks) := by
      unfold funcAnns paramsOf
      rw [hf .returns rfl, hf .args rfl]
      have : ∀ l, argAnns env (.mk i ks') l = argAnns env (.mk i ks) l := by
        intro l
        induction l with
        | nil => rfl
        | cons a l ih => unfold argAnns; rw [ih]; rfl
      rw [this]
      rfl
    have h4 : gen env (dropReturns env (.mk i ks')) (dropReturnsKids env cs) = gen env (dropReturns env (.mk i ks)) (dropReturnsKids env cs) := by
      unfold gen
      rw [genEnter_same hp (n := dropReturns env (.mk i ks)) (m := dropReturns env (.mk i ks')) rfl]
    rw [h1, h2, h3, h4]
  have hhf : handleFor env (.mk i ks') cs = handleFor env (.mk i ks) cs := by
    unfold handleFor forDict
    rw [hf .target rfl, hf .iter rfl, hgen]
    rfl
  have hhw : handleWith env (.mk i ks') cs = handleWith env (.mk i ks) cs := by
    unfold handleWith multiWith isWithParen
    rw [hfs .items rfl, hgen]
    rfl
  have hk : (Node.mk i ks').kind = (Node.mk i ks).kind := rfl
  unfold visitAlg
  rw [hk]
  cases hi : (Node.mk i ks).kind <;> (have hi' : i.kind = _ := hi; rw [hi'] at hc) <;> first
    | exact absurd hc id
    | exact hgen
    | skip
  case functionDef name => show visitFunctionDef _ _ _ _ = visitFunctionDef _ _ _ _; unfold visitFunctionDef; simp only [hfd, hg]
  case asyncFunctionDef name => show visitAsyncFunctionDef _ _ _ _ = visitAsyncFunctionDef _ _ _ _; unfold visitAsyncFunctionDef; simp only [hfd, hg]; rfl
  case classDef name =>
    show visitClassDef _ _ _ _ = visitClassDef _ _ _ _
    unfold visitClassDef classDecos metaclassKw decoLine checkRelaxed
    simp only [hfs .decoratorList rfl, hfs .keywords rfl, hgen, hg]
  case «for» => exact hhf
  case asyncFor => show visitAsyncFor _ _ _ = visitAsyncFor _ _ _; unfold visitAsyncFor; simp only [hhf, hg]; rfl
  case «while» => show visitWhile _ _ _ = visitWhile _ _ _; unfold visitWhile; simp only [hgen, hg]
  case «if» => show visitGated _ _ _ = visitGated _ _ _; unfold visitGated; simp only [hgen, hg]
  case «with» => show visitWith _ _ _ = visitWith _ _ _; unfold visitWith; simp only [hhw, hg]; rfl
  case asyncWith => show visitAsyncWith _ _ _ = visitAsyncWith _ _ _; unfold visitAsyncWith; simp only [hhw, hg]; rfl
  case «match» => show visitMatch _ _ _ = visitMatch _ _ _; unfold visitMatch; simp only [hgen, hg]; rfl
  case «try» => show visitTry _ _ _ = visitTry _ _ _; unfold visitTry; simp only [hgen, hg]
  case exceptHandler name =>
    show visitExceptHandler _ _ _ _ = visitExceptHandler _ _ _ _
    unfold visitExceptHandler
    simp only [hgen, hg, hf .type rfl]
    rfl

theorem padded_info {n m : Node} (h : Padded n m) : m.info = n.info := by
  cases h with
  | same => rfl
  | node => rfl

theorem paddedList_fields : ∀ {ks ks' : List Node}, PaddedList ks ks' →
    (∀ f, isBlock f = false → (ks'.filter fun k => decide (k.fld = f)) = ks.filter fun k => decide (k.fld = f)) ∧
    ∀ f, isBlock f = false → (ks'.find? fun k => decide (k.fld = f)) = ks.find? fun k => decide (k.fld = f)
  | [], [], _ => ⟨fun _ _ => rfl, fun _ _ => rfl⟩
  | [], _ :: _, .more hb _ h => by
    obtain ⟨h1, h2⟩ := paddedList_fields h
    have hne : ∀ f, isBlock f = false → ∀ {k : Node}, isBlock k.fld = true → ¬ k.fld = f := fun f hf k hb he => by rw [he, hf] at hb; cases hb
    refine ⟨fun f hf => ?_, fun f hf => ?_⟩
    · rw [List.filter_cons, decide_eq_false (hne f hf hb), h1 f hf]; rfl
    · rw [List.find?_cons, decide_eq_false (hne f hf hb), h2 f hf]
  | k :: ks, _, h => by
    have hne : ∀ f, isBlock f = false → ∀ {k : Node}, isBlock k.fld = true → ¬ k.fld = f := fun f hf k hb he => by rw [he, hf] at hb; cases hb
    cases h with
    | keep h =>
      obtain ⟨h1, h2⟩ := paddedList_fields h
      exact ⟨fun f hf => by rw [List.filter_cons, List.filter_cons, h1 f hf], fun f hf => by rw [List.find?_cons, List.find?_cons, h2 f hf]⟩
    | into hb hk h =>
      obtain ⟨h1, h2⟩ := paddedList_fields h
      have hi := congrArg Info.fld (padded_info hk)
      refine ⟨fun f hf => ?_, fun f hf => ?_⟩
      · have := hne f hf hb
        rw [List.filter_cons, List.filter_cons, h1 f hf, decide_eq_false this, decide_eq_false (by unfold Node.fld; rw [hi]; exact this)]; rfl
      · have := hne f hf hb
        rw [List.find?_cons, List.find?_cons, h2 f hf, decide_eq_false this, decide_eq_false (by unfold Node.fld; rw [hi]; exact this)]
    | more hb _ h =>
      obtain ⟨h1, h2⟩ := paddedList_fields h
      refine ⟨fun f hf => ?_, fun f hf => ?_⟩
      · rw [List.filter_cons, decide_eq_false (hne f hf hb), h1 f hf]; rfl
      · rw [List.find?_cons, decide_eq_false (hne f hf hb), h2 f hf]

variable {g : Layout} {env : Env} {e : Site}

mutual
theorem padded_node (hp : env.cfg.printVisits = false) (hi : (env.on e).isInitFile = env.isInitFile) (hu : ∀ u v, g.uid u = g.uid v → u = v) :
    (n m : Node) → Padded (n.moved g) m → (∀ k, In k n → Agrees env e g k) →
      Follows g (visitNode env n).1 (visitNode (env.on e) m).1 ∧ Follows g (visitNode env n).2 (visitNode (env.on e) m).2
  | .mk i ks, m, h, hn => by
    have hn' := hn
    generalize hm : (Node.mk i ks).moved g = n' at h
    cases h with
    | same =>
      subst hm
      exact visitNode_follows hi hu (.mk i ks) hn
    | @node j ls ls' hc hl =>
      simp only [Node.moved] at hm
      injection hm with h1 h2
      subst h1 h2
      have hk := padded_kids hp hi hu ks ls' hl fun k hk m hm => hn m (.kid hk hm)
      obtain ⟨a, b⟩ := alg_blocks (env := env.on e) hp hc (paddedList_fields hl).1 (paddedList_fields hl).2 (visitKids (env.on e) ls')
      have := visitAlg_follows hi hu (.mk i ks) hn hk
      simp only [Node.moved] at this
      simp only [visitNode]
      rw [a, b]
      exact ⟨this, gen_follows _ _ hk⟩
theorem padded_kids (hp : env.cfg.printVisits = false) (hi : (env.on e).isInitFile = env.isInitFile) (hu : ∀ u v, g.uid u = g.uid v → u = v) :
    (ks ks' : List Node) → PaddedList (movedAll g ks) ks' → (∀ k ∈ ks, ∀ m, In m k → Agrees env e g m) → Couples g (visitKids env ks) (visitKids (env.on e) ks')
  | ks, [], h, _ => by
    cases ks with
    | nil => exact .nil
    | cons => simp only [movedAll] at h; cases h
  | [], k' :: ks', h, hn => by
    simp only [movedAll] at h
    cases h with
    | more _ hh h =>
      have := visitNode_idle (env := env.on e) k' hh
      exact .more this.1.follows this.2.follows (padded_kids hp hi hu [] ks' h hn)
  | k :: ks, k' :: ks', h, hn => by
    simp only [movedAll] at h
    generalize hk : k.moved g = l at h
    generalize hks : movedAll g ks = ls at h
    cases h with
    | keep h =>
      subst hk hks
      have h1 := visitNode_follows hi hu k (hn k (by simp))
      exact .cons (Node.moved_fld k) h1.1 h1.2 (padded_kids hp hi hu ks ks' h fun x hx => hn x (by simp [hx]))
    | into _ hh h =>
      subst hk hks
      have h1 := padded_node hp hi hu k k' hh (hn k (by simp))
      refine .cons ?_ h1.1 h1.2 (padded_kids hp hi hu ks ks' h fun x hx => hn x (by simp [hx]))
      show k'.fld = k.fld
      rw [← Node.moved_fld (g := g) k]
      exact congrArg Info.fld (padded_info hh)
    | more _ hh h =>
      have := visitNode_idle (env := env.on e) k' hh
      refine .more this.1.follows this.2.follows (padded_kids hp hi hu (k :: ks) ks' ?_ hn)
      simp only [movedAll]
      rw [hk, hks]
      exact h
end

theorem tour_padded (hp : env.cfg.printVisits = false) (hi : (env.on e).isInitFile = env.isInitFile) (hu : ∀ u v, g.uid u = g.uid v → u = v) (n m : Node)
    (h : Padded (n.moved g) m) (hn : ∀ k, In k n → Agrees env e g k) : Follows g (tour env n) (tour (env.on e) m) := by
  refine .seq (padded_node hp hi hu n m h hn).1 (.rd fun s _ _ _ => .each (fun u => .rd fun s _ _ _ => ?_) _)
  exact .seq (.seq (.seq (.each (fun _ => .print ..) _) (.act fun _ _ _ _ => rfl)) (.each (fun _ => .print ..) _)) (.act fun _ _ _ _ => rfl)

end Vermin
