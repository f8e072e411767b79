import Verif.Lemmas.Step
import Verif.Spec.Reach
/-
The visit of a node contains the visits of the parts that are looked at.
-/
namespace Vermin
open Py V Spec

/-- What is found, and the definitions, only grow; loops and `finally` blocks are left. -/
structure Grows (s t : S) : Prop where
  flags : s.flags ⊆ t.flags
  modules : s.modules ⊆ t.modules
  members : s.members ⊆ t.members
  kwargs : s.kwargs ⊆ t.kwargs
  decos : s.userFuncDecos ⊆ t.userFuncDecos
  strftime : s.strftime ⊆ t.strftime
  bytesDirs : s.bytesDirs ⊆ t.bytesDirs
  typecodes : s.typecodes ⊆ t.typecodes
  codecsErr : s.codecsErr ⊆ t.codecsErr
  codecsEnc : s.codecsEnc ⊆ t.codecsEnc
  defs : s.userDefs ⊆ t.userDefs
  loops : (t.seenFor, t.seenWhile, t.tryFinally) = (s.seenFor, s.seenWhile, s.tryFinally)
  yields : s.seenYield ≤ t.seenYield
  awaits : s.seenAwait ≤ t.seenAwait

theorem Grows.refl (s : S) : Grows s s :=
  ⟨fun _ h => h, fun _ h => h, fun _ h => h, fun _ h => h, fun _ h => h, fun _ h => h, fun _ h => h, fun _ h => h, fun _ h => h, fun _ h => h,
    fun _ h => h, rfl, Nat.le_refl _, Nat.le_refl _⟩
theorem Grows.trans {s t u : S} (h : Grows s t) (k : Grows t u) : Grows s u :=
  ⟨fun _ x => k.flags (h.flags x), fun _ x => k.modules (h.modules x), fun _ x => k.members (h.members x), fun _ x => k.kwargs (h.kwargs x),
    fun _ x => k.decos (h.decos x), fun _ x => k.strftime (h.strftime x), fun _ x => k.bytesDirs (h.bytesDirs x),
    fun _ x => k.typecodes (h.typecodes x), fun _ x => k.codecsErr (h.codecsErr x), fun _ x => k.codecsEnc (h.codecsEnc x),
    fun _ x => k.defs (h.defs x), k.loops.trans h.loops, Nat.le_trans h.yields k.yields, Nat.le_trans h.awaits k.awaits⟩
theorem Step.grows {env : Env} {n : Node} {s t : S} (h : Step env n s t) : Grows s t :=
  ⟨fun _ => h.flags.sub, fun _ => h.modules.sub, fun _ => h.members.sub, fun _ => h.kwargs.sub, fun _ => h.decos.sub, fun _ => h.strftime.sub, fun _ => h.bytesDirs.sub, fun _ => h.typecodes.sub, fun _ => h.codecsErr.sub,
    fun _ => h.codecsEnc.sub, h.defs, by rw [h.seenFor, h.seenWhile, h.tryFinally], h.yields.1, h.awaits.1⟩

/-- Actions with which it grows. -/
def Growing (v : V) : Prop := ∀ s t, v s = .ok t → Grows s t

theorem Growing.skip : Growing skip := fun s t h => by injection h with h; rw [h]; exact .refl t
theorem Growing.seq {a b : V} (ha : Growing a) (hb : Growing b) : Growing (a ;; b) := fun s t h => by
  obtain ⟨u, h1, h2⟩ := seq_run h
  exact (ha s u h1).trans (hb u t h2)
theorem Growing.rd {f : S → V} (hf : ∀ s, Growing (f s)) : Growing (rd f) := fun s t h => hf s s t h
theorem Growing.when {c : Bool} {a : V} (ha : Growing a) : Growing (when c a) := by
  cases c with
  | true => exact ha
  | false => exact .skip
theorem growing_upd {f : S → S} (hf : ∀ s, Grows s (f s)) : Growing (upd f) := fun s t h => by rw [upd_run h]; exact hf s
theorem Growing.print (env : Env) (l msg ent line vs pl) : Growing (verbosePrint env l msg ent line vs pl) := fun s t h => by
  obtain ⟨o, rfl⟩ := verbosePrint_run h
  exact { Grows.refl s with }
theorem Growing.same {f : S → S} (h : ∀ s, Grows s (f s)) : Growing (upd f) := growing_upd h
theorem growing_inScope {a : V} (ha : Growing a) : Growing (inScope a) := fun s t h => by
  obtain ⟨u, h1, h2⟩ := seq_run (show (a ;; restoreDefs s.userDefs) s = .ok t from h)
  rw [upd_run h2]
  exact { ha s u h1 with defs := fun _ h => h }
theorem growing_flag (f : Flag) : Growing (setFlag f) := growing_upd fun s => by
  refine { Grows.refl s with flags := fun x hx => ?_ }
  unfold S.set
  split
  · exact hx
  · exact List.mem_append_left _ hx

theorem growing_final {a : V} (ha : Growing a) :
    Growing (upd (fun s => { s with tryFinally := (s.seenFor, s.seenWhile) :: s.tryFinally }) ;; a ;; upd (fun s => { s with tryFinally := s.tryFinally.drop 1 })) := by
  intro s t h
  obtain ⟨v, h0, h1⟩ := seq_run h
  have h1 := upd_run h1
  subst h1
  obtain ⟨w, h00, h0⟩ := seq_run h0
  have h00 := upd_run h00
  subst h00
  have h3 := ha _ v h0
  refine { h3 with loops := ?_ }
  have := h3.loops
  simp only [Prod.mk.injEq] at this ⊢
  exact ⟨this.1, this.2.1, by rw [this.2.2]; rfl⟩

theorem growing_pop : Growing popFn := growing_upd fun s => { Grows.refl s with }
theorem growing_push (f : String) : Growing (pushFn f) := growing_upd fun s => { Grows.refl s with }

/-- Actions after which the counters are set to what they were. -/
theorem growing_reset {a : S → V} (ha : ∀ s, Growing (a s)) {y w : S → S → Nat}
    (h : ∀ s u : S, Grows s u → s.seenYield ≤ y s u ∧ s.seenAwait ≤ w s u) :
    Growing (V.rd fun s => a s ;; upd fun u => { u with seenYield := y s u, seenAwait := w s u }) := by
  intro s t ht
  obtain ⟨u, h1, h2⟩ := seq_run ht
  rw [upd_run h2]
  have := ha s s u h1
  exact { this with yields := (h s u this).1, awaits := (h s u this).2 }

theorem closed_growing (env : Env) (n : Node) : Closed env env.display n (fun _ => True) (fun v _ => Growing v) (fun _ => True) where
  skip := .skip
  seq ha hb := ha.seq hb
  excl _ := rfl
  feats _ := rfl
  init := rfl
  rdMods hf := .rd fun s => hf s s.findings rfl trivial
  raise _ := fun s t h => by cases h
  print _ _ _ _ _ _ _ := .print _ _ _ _ _ _ _
  flag _ := growing_flag _
  module {m} l c hf := by
    refine .rd fun s => ?_
    split
    · exact .print _ _ _ _ _ _ _
    · split
      · exact .print _ _ _ _ _ _ _
      · refine .when (growing_upd fun s => ?_)
        obtain ⟨d, hd⟩ := addLineCol_with { s with modules := s.modules ++ [m] } (.name m) l c
        rw [hd]
        exact { Grows.refl s with modules := fun _ h => List.mem_append_left _ h }
  member {m} l c hf := by
    refine .rd fun s => ?_
    split
    · exact .print _ _ _ _ _ _ _
    · split
      · exact .print _ _ _ _ _ _ _
      · refine .when (growing_upd fun s => ?_)
        obtain ⟨d, hd⟩ := addLineCol_with { s with members := s.members ++ [m] } (.name m) l c
        rw [hd]
        exact { Grows.refl s with members := fun _ h => List.mem_append_left _ h }
  kwarg {f k} l hf := by
    refine .rd fun s => ?_
    split
    · exact .print _ _ _ _ _ _ _
    · split
      · exact .print _ _ _ _ _ _ _
      · exact .when (growing_upd fun s => { Grows.refl s with kwargs := fun _ h => List.mem_append_left _ h })
  deco {u} l hf := by
    refine .rd fun s => ?_
    split
    · exact .print _ _ _ _ _ _ _
    · split
      · exact .print _ _ _ _ _ _ _
      · exact .when (growing_upd fun s => { Grows.refl s with decos := fun _ h => List.mem_append_left _ h })
  strftime l hf := growing_upd fun s => { Grows.refl s with strftime := fun _ h => List.mem_append_left _ h }
  bytesDir l hf := growing_upd fun s => { Grows.refl s with bytesDirs := fun _ h => List.mem_append_left _ h }
  typecode l c hf := .rd fun s => .when (growing_upd fun s => { Grows.refl s with typecodes := fun _ h => List.mem_append_left _ h })
  errorHandler {c} l hf := by
    unfold addErrorHandler
    split
    · exact .print _ _ _ _ _ _ _
    · exact growing_upd fun s => { Grows.refl s with codecsErr := fun _ h => List.mem_append_left _ h }
  encoding {c} l hf := by
    unfold addEncoding
    split
    · exact .print _ _ _ _ _ _ _
    · exact growing_upd fun s => { Grows.refl s with codecsEnc := fun _ h => List.mem_append_left _ h }
  userDef _ := growing_upd fun s => { Grows.refl s with defs := fun y hy => mem_addSet_left hy }
  nameRes _ := growing_upd fun s => { Grows.refl s with }
  nameResType _ := growing_upd fun s => { Grows.refl s with }
  moduleAs _ := growing_upd fun s => { Grows.refl s with }
  importMem _ := growing_upd fun s => { Grows.refl s with }
  callScope _ ha := .seq (.seq (growing_push _) ha) (growing_upd fun s => { Grows.refl s with })
  pop _ := growing_pop
  yield hy := growing_upd fun s => { Grows.refl s with yields := Nat.le_succ _ }
  await hy := growing_upd fun s => { Grows.refl s with awaits := Nat.le_succ _ }
  ellipsis _ := growing_upd fun s => { Grows.refl s with }
  gen m a _ ha := by
    refine .seq (.seq (fun s t h => ?_) ha) (growing_upd fun s => { Grows.refl s with })
    obtain ⟨l, o, rfl⟩ := genEnter_run h
    exact { Grows.refl s with }
  inScope ha := growing_inScope ha
  yieldScope {a _} ha := growing_reset (fun _ => ha) fun s u h => ⟨Nat.le_refl _, h.awaits⟩
  asyncScope {a a' name} hn hf ha := growing_reset (fun s => .seq (.seq ha (.seq (growing_flag _) (.print _ _ _ _ _ _ _)))
    (.rd fun s' => .when (.seq (growing_flag _) (.print _ _ _ _ _ _ _)))) fun _ _ _ => ⟨Nat.le_refl _, Nat.le_refl _⟩
  compScope {a a' b} hn ha := growing_reset (fun s => .seq ha
    (.rd fun s' => .when (.seq (growing_flag _) (.print _ _ _ _ _ _ _)))) fun _ _ h => ⟨h.yields, Nat.le_refl _⟩
  forScope {a b c _ _ _} _ ha hb hc := by
    intro s t h
    obtain ⟨v, h1, h2⟩ := seq_run h
    have h1 := upd_run h1
    subst h1
    obtain ⟨u, h1, h2⟩ := seq_run (show (a ;; b ;; c ;; (upd fun s => { s with seenFor := s.seenFor - 1 }) ;; restoreDefs s.userDefs) _ = .ok t from h2)
    have h2 := upd_run h2
    subst h2
    obtain ⟨v, h5, h2⟩ := seq_run h1
    have h2 := upd_run h2
    subst h2
    have h3 := (Growing.seq (ha.seq hb) hc) _ v h5
    refine { h3 with loops := ?_, defs := fun _ h => h }
    have := h3.loops
    simp only [Prod.mk.injEq] at this ⊢
    exact ⟨by omega, this.2⟩
  whileScope _ ha := by
    intro s t h
    obtain ⟨u, h1, h2⟩ := seq_run h
    have h2 := upd_run h2
    subst h2
    obtain ⟨v, h0, h1⟩ := seq_run h1
    have h0 := upd_run h0
    subst h0
    have h3 := ha _ u h1
    refine { h3 with loops := ?_ }
    have := h3.loops
    simp only [Prod.mk.injEq] at this ⊢
    exact ⟨this.1, by omega, this.2.2⟩
  tryScope _ ha hb := .seq (growing_final ha) hb

theorem Growing.lift {α : Type} {x : Except Err α} {k : α → V} (hk : ∀ v, Growing (k v)) : Growing (V.lift x k) := by
  cases x with
  | ok v => exact hk v
  | error e => exact fun s t h => by cases h
theorem Growing.opt {α : Type} {x : Option α} {a : V} {k : α → V} (ha : Growing a) (hk : ∀ v, x = some v → Growing (k v)) : Growing (V.opt x a k) := by
  cases x with
  | none => exact ha
  | some v => exact hk v rfl
theorem Growing.optSkip {α : Type} {x : Option α} {k : α → V} (hk : ∀ v, x = some v → Growing (k v)) : Growing (V.opt x V.skip k) := .opt .skip hk
theorem Growing.ite {c : Prop} [Decidable c] {a b : V} (ha : Growing a) (hb : Growing b) : Growing (if c then a else b) := by
  split
  · exact ha
  · exact hb
theorem Growing.alt {c : Bool} {a b : V} (ha : Growing a) (hb : Growing b) : Growing (V.alt c a b) := by
  cases c with
  | true => exact ha
  | false => exact hb
theorem Growing.each {α : Type} {f : α → V} : ∀ {l : List α}, (∀ x ∈ l, Growing (f x)) → Growing (V.each f l)
  | [], _ => .skip
  | x :: _, h => .seq (h x (.head _)) (Growing.each fun y hy => h y (.tail _ hy))
theorem Growing.found {env : Env} {f : Flag} {msg vs line pl} : Growing (found env f msg vs line pl) := .seq (growing_flag _) (.print _ _ _ _ _ _ _)

theorem kids_growing (env : Env) (n : Node) : Kids n (fun v _ => Growing v) (visitKids env n.kids) (visitKids (env.show env.display) n.kids) :=
  visitKids_closed (I := fun _ _ => True) (Q := fun _ v _ => Growing v) (A := fun _ _ => True) (closed_growing env) (fun _ _ _ => trivial) (fun _ _ _ _ _ h => h) n n.kids
    fun _ h => h
section
variable {env : Env} {n : Node}
theorem growing_typecodeArgs (off : Nat) : Growing (typecodeArgs n off) :=
  .each fun _ _ => .optSkip fun _ _ => .rd fun s => .when (growing_upd fun s => { Grows.refl s with typecodes := fun _ h => List.mem_append_left _ h })
theorem growing_checkCodecsFunction (func : String) : Growing (checkCodecsFunction env func n) := by
  have hc := closed_growing env n
  have hkw : Growing (addCodecsEncodingKws env n) := .each fun _ _ => .when (.optSkip fun _ _ => hc.encoding _ trivial)
  refine .seq (.optSkip fun idx _ => .seq (.optSkip fun c _ => hc.errorHandler _ trivial)
    (.each fun kw _ => .when (.optSkip fun c _ => hc.errorHandler _ trivial))) (.optSkip fun is _ => .each fun i _ => .opt hkw fun c _ => ?_)
  exact .ite (hc.encoding _ trivial) (.seq (hc.encoding _ trivial) hkw)
theorem growing_callCodecs (id : String) : Growing (callCodecs env n id) := by
  refine .rd fun s => ?_
  split
  · exact growing_checkCodecsFunction _
  · split
    · exact growing_checkCodecsFunction _
    · exact .skip
theorem growing_callName {id : String} (hn : CallsName n id) : Growing (callName env n id) := by
  have hc := closed_growing env n
  exact .seq (.seq (.seq (growing_push _) (hc.member _ _ trivial)) (growing_callCodecs id)) (hc.callSpecial (fun _ _ => trivial) hn)
theorem growing_callAttr {f : Node} {attr : String} (hn : n.kind = .call) (hf : n.field .func = some f) (ha : f.kind = .attribute attr) :
    Growing (callAttr env n f attr) := by
  have hc := closed_growing env n
  exact .seq (hc.callAttrSpecial (fun _ _ => trivial) hn hf ha) (.rd fun s => .lift fun name =>
    .seq (.seq (growing_push _) (growing_checkCodecsFunction _)) (.when (growing_typecodeArgs _)))
theorem growing_attrModules (n : Node) (full : List (Option String)) (dot : String) (line : Nat) : ∀ k i, Growing (attrModules env full dot line k i)
  | 0, _ => .skip
  | k + 1, i => .rd fun s => .optSkip fun m _ => .seq (.rd fun s => .ite ((closed_growing env n).module _ _ trivial)
      (.optSkip fun m _ => (closed_growing env n).member _ _ trivial)) (growing_attrModules n full dot line k (i + 1))
end

theorem visit_growing (env : Env) (n : Node) : Growing (visit env n) := fun s t h => (visit_steps env n s t h).grows

/-! ### Actions within actions -/

/-- A preorder on states that includes growing. -/
structure Rel (R : S → S → Prop) : Prop where
  trans {s t u : S} : R s t → R t u → R s u
  grow {s t : S} : Grows s t → R s t

theorem Rel.grows : Rel Grows := ⟨Grows.trans, id⟩

/-- Running `v` runs `g`, with growth before and after. -/
def RunsIn (R : S → S → Prop) (g v : V) : Prop := ∀ s t, v s = .ok t → ∃ a b, R s a ∧ g a = .ok b ∧ R b t

namespace RunsIn
variable {R : S → S → Prop} (hR : Rel R) {g : V}
include hR

theorem here : RunsIn R g g := fun s t h => ⟨s, t, hR.grow (.refl s), h, hR.grow (.refl t)⟩
theorem fst {a b : V} (ha : RunsIn R g a) (hb : Growing b) : RunsIn R g (a ;; b) := fun s t h => by
  obtain ⟨u, h1, h2⟩ := seq_run h
  obtain ⟨x, y, hx, hg, hy⟩ := ha s u h1
  exact ⟨x, y, hx, hg, hR.trans hy (hR.grow (hb u t h2))⟩
theorem snd {a b : V} (ha : Growing a) (hb : RunsIn R g b) : RunsIn R g (a ;; b) := fun s t h => by
  obtain ⟨u, h1, h2⟩ := seq_run h
  obtain ⟨x, y, hx, hg, hy⟩ := hb u t h2
  exact ⟨x, y, hR.trans (hR.grow (ha s u h1)) hx, hg, hy⟩
theorem fstR {a b : V} (ha : RunsIn R g a) (hb : ∀ s t, b s = .ok t → R s t) : RunsIn R g (a ;; b) := fun s t h => by
  obtain ⟨u, h1, h2⟩ := seq_run h
  obtain ⟨x, y, hx, hg, hy⟩ := ha s u h1
  exact ⟨x, y, hx, hg, hR.trans hy (hb u t h2)⟩
theorem sndR {a b : V} (ha : ∀ s t, a s = .ok t → R s t) (hb : RunsIn R g b) : RunsIn R g (a ;; b) := fun s t h => by
  obtain ⟨u, h1, h2⟩ := seq_run h
  obtain ⟨x, y, hx, hg, hy⟩ := hb u t h2
  exact ⟨x, y, hR.trans (ha s u h1) hx, hg, hy⟩
omit hR in
theorem rd {f : S → V} (hf : ∀ s, RunsIn R g (f s)) : RunsIn R g (rd f) := fun s t h => hf s s t h
omit hR in
theorem gate {env : Env} {n : Node} {v : V} (hn : n.line ∉ env.noLines) (hv : RunsIn R g v) : RunsIn R g (gate env n v) := by
  unfold Vermin.gate
  rw [if_neg (by simpa [Env.isNoLine] using hn)]
  exact hv
omit hR in
theorem scope {v : V} (hs : ∀ s d, R s { s with userDefs := d }) (ht : ∀ {s t u : S}, R s t → R t u → R s u) (hv : RunsIn R g v) : RunsIn R g (inScope v) := fun s t h => by
  obtain ⟨u, h1, h2⟩ := seq_run (show (v ;; restoreDefs s.userDefs) s = .ok t from h)
  obtain ⟨x, y, hx, hg, hy⟩ := hv s u h1
  rw [upd_run h2]
  exact ⟨x, y, hx, hg, ht hy (hs _ _)⟩
theorem each {cs : List Child} {c : Child} (hc : c ∈ cs) (hcs : ∀ c ∈ cs, Growing c.visit) : RunsIn R c.visit (V.each Child.visit cs) := by
  induction cs with
  | nil => cases hc
  | cons d ds ih =>
    have hds : Growing (V.each Child.visit ds) := by
      have : ∀ c ∈ ds, Growing c.visit := fun c h => hcs c (.tail _ h)
      clear ih hc hcs
      induction ds with
      | nil => exact .skip
      | cons e es ih => exact .seq (this e (.head _)) (ih fun c h => this c (.tail _ h))
    rcases List.mem_cons.mp hc with rfl | h
    · exact fst hR (here hR) hds
    · exact snd hR (hcs d (.head _)) (ih h fun c h => hcs c (.tail _ h))
end RunsIn

theorem mem_visitKids {env : Env} {k : Node} : ∀ {ks : List Node}, k ∈ ks → ⟨k, visit env k, genericVisit env k⟩ ∈ visitKids env ks
  | x :: ks, h => by
    unfold visitKids
    rcases List.mem_cons.mp h with rfl | h
    · exact .head _
    · exact .tail _ (mem_visitKids h)
theorem of_mem_visitKids {env : Env} {c : Child} : ∀ {ks : List Node}, c ∈ visitKids env ks →
    c.node ∈ ks ∧ c.visit = visit env c.node ∧ c.gvisit = genericVisit env c.node
  | [], h => by unfold visitKids at h; cases h
  | x :: ks, h => by
    unfold visitKids at h
    rcases List.mem_cons.mp h with rfl | h
    · exact ⟨.head _, rfl, rfl⟩
    · have := of_mem_visitKids h
      exact ⟨.tail _ this.1, this.2⟩

section
variable {R : S → S → Prop} (hR : Rel R) {env : Env} {n k : Node}
include hR

theorem gen_runs {m : Node} {c : Child} {cs : List Child} (hk : c ∈ cs) (hcs : ∀ c ∈ cs, Growing c.visit) : RunsIn R c.visit (gen env m cs) := by
  refine .fst hR (.snd hR (fun s t h => ?_) (.each hR hk hcs)) (growing_upd fun s => { Grows.refl s with })
  obtain ⟨l, o, rfl⟩ := genEnter_run h
  exact { Grows.refl s with }

omit hR in
theorem _root_.Vermin.Kids.visits {m : Node} {P : V → Prop} {cs cs' : List Child} (h : Kids m (fun v _ => P v) cs cs') : ∀ c ∈ cs, P c.visit := by
  induction h with
  | nil => nofun
  | cons _ hv _ _ ih =>
    intro c hc
    rcases List.mem_cons.mp hc with rfl | hc
    · exact hv
    · exact ih c hc

omit hR in
theorem visitMk (env : Env) (n : Node) : visit env n = visitAlg env n (visitKids env n.kids) := by
  cases n with
  | mk i ks => unfold visit visitNode; rfl

/-- The visit of a node contains the visits of the parts that are looked at, whatever these visits do. -/
theorem alg_runs {c : Child} {cs : List Child} (hkm : c ∈ cs) (hkids : Kids n (fun v _ => Growing v) cs cs) (hm : ¬ Marked env n)
    (ho : ¬ Opaque n.kind) (hu : ¬ Unevaluated env n c.node) (hs : Scoped n.kind → ∀ s d, R s { s with userDefs := d })
    (hlp : IsLoop n.kind → ∀ s f w, R s { s with seenFor := f, seenWhile := w })
    (hct : Counted n.kind → ∀ s y w, R s { s with seenYield := y, seenAwait := w }) : RunsIn R c.visit (visitAlg env n cs) := by
  have hks : ∀ c ∈ cs, Growing c.visit := hkids.visits
  have hgen : RunsIn R c.visit (gen env n cs) := gen_runs hR hkm hks
  have hc := closed_growing env n
  have hA : ∀ ev, Emits env n ev → True := fun _ _ => trivial
  have hscope : Scoped n.kind → ∀ {v : V}, RunsIn R c.visit v → RunsIn R c.visit (inScope v) := fun h _ hv => .scope (hs h) hR.trans hv
  have hline : Markable n.kind → n.line ∉ env.noLines := fun h1 h2 => hm ⟨h1, h2⟩
  unfold visitAlg
  have hfun : ∀ name, DefinesFunction n name → RunsIn R c.visit (handleFunctionDef env n name cs) := by
    intro name hn
    refine .fst hR (.snd hR (.seq (.seq (hc.userDef trivial) (hc.dirFuncs hA hn)) (hc.funcDecos hA ⟨name, hn⟩)) ?_) (hc.funcAnns hA ⟨name, hn⟩)
    refine hscope ?_ (gen_runs hR (List.mem_filter.mpr ⟨hkm, ?_⟩) fun c hc => hks c (List.mem_filter.mp hc).1)
    · rcases hn with hn | hn <;> rw [hn] <;> trivial
    · by_cases he : env.cfg.evalAnnotations = true
      · simp [he]
      · have : c.node.fld ≠ .returns := fun h => hu ⟨by simpa using he, .inr ⟨⟨name, hn⟩, h⟩⟩
        simp [this]
  have hcomp : Scoped n.kind → RunsIn R c.visit (visitComp env n cs) := fun h =>
    hscope h (.snd hR (.each fun c _ => .optSkip fun t _ => hc.addTargets fun _ _ => trivial) hgen)
  have hwith : Scoped n.kind → (n.kind = .with ∨ n.kind = .asyncWith) → RunsIn R c.visit (handleWith env n cs) := by
    intro h hn
    refine hscope h (.snd hR (.seq (.each fun w _ => .optSkip fun t _ => hc.addTargets fun _ _ => trivial) (.when ?_)) hgen)
    exact .seq .found (.when .found)
  have hfor : Scoped n.kind → Markable n.kind → (n.kind = .for ∨ n.kind = .asyncFor) → RunsIn R c.visit (handleFor env n cs) := by
    intro h hl hn
    have hlp' := hlp (by rcases hn with hn | hn <;> rw [hn] <;> trivial)
    refine .gate (hline hl) (.sndR hR (fun s t h => by rw [upd_run h]; exact hlp' s (s.seenFor + 1) s.seenWhile) (hscope h ?_))
    exact .fstR hR (.snd hR (.seq (.optSkip fun t _ => hc.addTargets fun _ _ => trivial) (hc.forDict hA hn)) hgen)
      (fun s t h => by rw [upd_run h]; exact hlp' s (s.seenFor - 1) s.seenWhile)
  cases hn : n.kind with
  | «import» => rw [hn] at ho; exact absurd trivial ho
  | importFrom m l => rw [hn] at ho; exact absurd trivial ho
  | name id c => rw [hn] at ho; exact absurd trivial ho
  | keyword a => rw [hn] at ho; exact absurd trivial ho
  | const c => rw [hn] at ho; exact absurd trivial ho
  | «alias» x y => rw [hn] at ho; exact absurd trivial ho
  | pass => rw [hn] at ho; exact absurd trivial ho
  | «break» => rw [hn] at ho; exact absurd trivial ho
  | «continue» => rw [hn] at ho; exact absurd trivial ho
  | op o => rw [hn] at ho; exact absurd trivial ho
  | starred ctx => exact .snd hR (.when .found) hgen
  | call =>
    refine .gate (hline (by rw [hn]; trivial)) (.fst hR (.snd hR (.seq (.optSkip fun f hf => ?_) (hc.checkUnpacking hA)) hgen) growing_pop)
    unfold callFunc
    split
    · rename_i id c hfk
      exact growing_callName ⟨hn, by rw [hf]; simp [Node.nameId, hfk]⟩
    · rename_i attr hfk
      exact growing_callAttr hn hf hfk
    · exact .skip
  | «attribute» a =>
    refine .snd hR (.rd fun s => .lift fun full => .when (.seq (.seq (growing_attrModules n full _ _ _ _) (hc.member _ _ trivial))
      (.rd fun s => .optSkip fun res _ => .seq (.opt (hc.member _ _ trivial) fun _ _ => hc.member _ _ trivial) ?_))) hgen
    unfold attrTwoTier
    split
    · exact .optSkip fun _ _ => hc.member _ _ trivial
    · exact .skip
  | binOp =>
    exact .snd hR (.seq (.when (.optSkip fun l _ => .seq (.when .found) (.when .found))) (.when (.optSkip fun l _ => .optSkip fun r _ =>
      .seq (.rd fun s => .lift fun b => .when .found) (.when (.rd fun s => .lift fun b => .when .found))))) hgen
  | joinedStr => exact .snd hR (.seq .found (.when (.rd fun s => .lift fun b => .when .found))) hgen
  | assign =>
    exact .gate (hline (by rw [hn]; trivial)) (.snd hR (.seq (.each fun t _ => hc.addTargets fun _ _ => trivial) (hc.addNameResAssign hA (by simp [hn]))) hgen)
  | augAssign =>
    refine .gate (hline (by rw [hn]; trivial)) (.snd hR (.seq (.seq (.optSkip fun t _ => hc.addUserDefNode fun _ _ => trivial) (hc.addNameResAssign hA (by simp [hn]))) ?_) hgen)
    exact .when (.optSkip fun t _ => .optSkip fun v _ => .rd fun s => .lift fun vd => .ite (.lift fun a => .lift fun b => .when .found)
      (.when (.lift fun b => .when .found)))
  | annAssign =>
    have he : env.cfg.evalAnnotations = true := by
      cases he : env.cfg.evalAnnotations with
      | true => rfl
      | false => exact absurd ⟨he, .inl hn⟩ hu
    refine .gate (hline (by rw [hn]; trivial)) (.fst hR (.fst hR (.fst hR (.snd hR (.seq (.optSkip fun t _ => hc.addUserDefNode fun _ _ => trivial) (hc.addNameResAssign hA (by simp [hn]))) ?_)
      (growing_flag _)) .found) (.optSkip fun a _ => .ite .found (.when .found)))
    rw [he]
    exact hgen
  | functionDef name =>
    exact .gate (hline (by rw [hn]; trivial)) (.rd fun s => .fstR hR (hfun name (.inl hn)) (fun u t h => by rw [upd_run h]; exact hct (by rw [hn]; trivial) u _ _))
  | asyncFunctionDef name =>
    exact .gate (hline (by rw [hn]; trivial)) (.rd fun s => .fstR hR (.fst hR (.fst hR (hfun name (.inr hn)) .found)
      (.rd fun s' => .when .found)) (fun u t h => by rw [upd_run h]; exact hct (by rw [hn]; trivial) u _ _))
  | lambda => exact hscope (by rw [hn]; trivial) hgen
  | await => exact .gate (hline (by rw [hn]; trivial)) (.snd hR (.seq .found (growing_upd fun s => { Grows.refl s with awaits := Nat.le_succ _ })) hgen)
  | classDef name =>
    refine .gate (hline (by rw [hn]; trivial)) (.fst hR (.snd hR (.seq (.seq (.seq (hc.userDef trivial) (hc.nameResType trivial)) (hc.classDecos hA hn)) (hc.metaclassKw hA hn)) hgen)
      (hc.eachGvisit hn (hkids.filter fun k => decide (k.fld = .body))))
  | namedExpr =>
    exact .gate (hline (by rw [hn]; trivial)) (.snd hR (.seq (.optSkip fun t _ => hc.addUserDefNode fun _ _ => trivial) .found) hgen)
  | arguments =>
    exact .snd hR (.seq (.seq (.when .found) (.when .found)) (.each fun a _ => .optSkip fun x _ => hc.userDef trivial)) hgen
  | nonlocal => exact .gate (hline (by rw [hn]; trivial)) (.snd hR .found hgen)
  | yieldFrom => exact .gate (hline (by rw [hn]; trivial)) (.snd hR .found hgen)
  | yield => exact .gate (hline (by rw [hn]; trivial)) (.snd hR (growing_upd fun s => { Grows.refl s with yields := Nat.le_succ _ }) hgen)
  | raise =>
    have hnm : ∀ e, Growing (namesAsMembers env e) := fun e => hc.namesAsMembers hA fun _ _ _ _ => trivial
    exact .gate (hline (by rw [hn]; trivial)) (.snd hR (.seq (.seq (.optSkip fun c _ => .seq .found (.when .found))
      (.optSkip fun e _ => hnm e)) (.optSkip fun e _ => hnm e)) hgen)
  | exceptHandler name =>
    have hnm : ∀ e, Growing (namesAsMembers env e) := fun e => hc.namesAsMembers hA fun _ _ _ _ => trivial
    exact .gate (hline (by rw [hn]; trivial)) (.snd hR (.when .found) (hscope (by rw [hn]; trivial)
      (.snd hR (.seq (.optSkip fun x _ => hc.userDef trivial) (.optSkip fun e _ => hnm e)) hgen)))
  | listComp => exact hcomp (by rw [hn]; trivial)
  | generatorExp => exact hcomp (by rw [hn]; trivial)
  | setComp => exact .snd hR .found (hcomp (by rw [hn]; trivial))
  | dictComp => exact .snd hR .found (hcomp (by rw [hn]; trivial))
  | comprehension a =>
    exact .snd hR (.when .found) (.rd fun s => .fstR hR (.fst hR hgen (.rd fun s' => .when .found))
      (fun u t h => by rw [upd_run h]; exact hct (by rw [hn]; trivial) u _ _))
  | «with» => exact .gate (hline (by rw [hn]; trivial)) (.snd hR .found (hwith (by rw [hn]; trivial) (.inl hn)))
  | asyncWith => exact .gate (hline (by rw [hn]; trivial)) (.snd hR .found (hwith (by rw [hn]; trivial) (.inr hn)))
  | dict l => exact .snd hR (hc.checkUnpacking hA) hgen
  | tuple c => exact .snd hR (hc.checkUnpacking hA) hgen
  | list c => exact .snd hR (hc.checkUnpacking hA) hgen
  | set => exact .snd hR .found (.snd hR (hc.checkUnpacking hA) hgen)
  | subscript =>
    have hg : ∀ name, Growing (genericType env name) := fun name => .alt (.rd fun s => .ite (.print _ _ _ _ _ _ _) .found) (growing_flag _)
    exact .gate (hline (by rw [hn]; trivial)) (.snd hR (.seq (.optSkip fun v _ => .rd fun s => .lift fun name => .optSkip fun coll _ =>
      .rd fun s => .ite (hg _) (.opt (.optSkip fun ts _ => .each fun t _ => .when (hg _)) fun m _ => .when (hg _))) (.optSkip fun x hx => hc.markSlice hA hn hx)) hgen)
  | «match» => exact .gate (hline (by rw [hn]; trivial)) (.snd hR .found hgen)
  | «if» => exact .gate (hline (by rw [hn]; trivial)) hgen
  | ifExp => exact .gate (hline (by rw [hn]; trivial)) hgen
  | boolOp => exact .gate (hline (by rw [hn]; trivial)) hgen
  | «for» => exact hfor (by rw [hn]; trivial) (by rw [hn]; trivial) (.inl hn)
  | asyncFor => exact .gate (hline (by rw [hn]; trivial)) (.snd hR .found (hfor (by rw [hn]; trivial) (by rw [hn]; trivial) (.inr hn)))
  | «while» =>
    have hlp' := hlp (by rw [hn]; trivial)
    exact .gate (hline (by rw [hn]; trivial)) (.fstR hR (.sndR hR (fun s t h => by rw [upd_run h]; exact hlp' s s.seenFor (s.seenWhile + 1)) hgen)
      (fun s t h => by rw [upd_run h]; exact hlp' s s.seenFor (s.seenWhile - 1)))
  | «try» =>
    exact .gate (hline (by rw [hn]; trivial)) (.snd hR (growing_final (hc.eachVisit (hkids.filter fun k => decide (k.fld = .finalbody)))) hgen)
  | typeAlias => exact .gate (hline (by rw [hn]; trivial)) (.snd hR .found hgen)
  | _ => exact hgen

/-- The visit of a node contains the visits of the parts that are looked at. -/
theorem kid_runs (hv : Visits env n k) (hs : Scoped n.kind → ∀ s d, R s { s with userDefs := d })
    (hlp : IsLoop n.kind → ∀ s f w, R s { s with seenFor := f, seenWhile := w })
    (hct : Counted n.kind → ∀ s y w, R s { s with seenYield := y, seenAwait := w }) : RunsIn R (visit env k) (visit env n) := by
  rw [visitMk env n]
  exact alg_runs hR (c := ⟨k, visit env k, genericVisit env k⟩) (mem_visitKids hv.1) (kids_growing env n) hv.2.1 hv.2.2.1 hv.2.2.2 hs hlp hct
end

end Vermin
