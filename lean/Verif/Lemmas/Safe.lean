import Verif.Lemmas.Closure
import Verif.Lemmas.Step
import Verif.Lemmas.Minimum
import Verif.Spec.Parsed
/-
Parsed programs without certain constructs are visited without exceptions.
-/
namespace Vermin
open Py V Spec

/-! ### Visits -/

theorem emits_raise {env : Env} {root n : Node} (hp : Parsed root) (ht : Tame env root) (hn : In n root) (e : Err) : ¬ Emits env n (.raise e) := by
  have sub : ∀ {x : Node}, In x n → Parsed x := fun hx m hm => hp m (In.trans (In.trans hm hx) hn)
  rintro (⟨_, f, a, c, h1, h2, h3, h4, h5, h6⟩ | ⟨hf, a, ha, he⟩ | ⟨hk, hf, v, hv, hvk, he⟩ | ⟨_, _, x, hx, he⟩ | ⟨_, _, x, hx, he⟩ | ⟨_, it, x, hi, hx, he⟩)
  · obtain ⟨t, rfl⟩ := ht.strftime n hn f a c h1 h2 h3 h4 h5
    exact h6 t rfl
  · exact ht.annotations n hn hf a ha he
  · have hfs := ht.fstrings n hn hf hk v hv hvk
    rcases he with he | he | he
    · exact he (sub (.kid (fields_mem hv) (.self _)))
    · exact hfs.1 he
    · exact hfs.2 he
  · rcases hx with hx | hx <;> exact he (sub (.kid (field_mem hx) (.self _)))
  · rcases hx with hx | hx <;> exact he (sub (.kid (field_mem hx) (.self _)))
  · exact he (sub (.kid (field_mem hi) (.kid hx (.self _))))

/-- Never raises. -/
def Total (v : V) : Prop := ∀ s, ∃ t, v s = .ok t

namespace Total
theorem skip : Total skip := fun s => ⟨s, rfl⟩
theorem upd (f : S → S) : Total (upd f) := fun s => ⟨f s, rfl⟩
theorem seq {a b : V} (ha : Total a) (hb : Total b) : Total (a ;; b) := fun s => by
  obtain ⟨t, ht⟩ := ha s
  obtain ⟨u, hu⟩ := hb t
  exact ⟨u, by show V.seq a b s = _; unfold V.seq; rw [ht]; exact hu⟩
theorem rd {f : S → V} (h : ∀ s, Total (f s)) : Total (V.rd f) := fun s => h s s
theorem when {c : Bool} {a : V} (h : Total a) : Total (when c a) := by
  cases c with
  | true => exact h
  | false => exact skip
theorem ite {c : Prop} [Decidable c] {a b : V} (ha : Total a) (hb : Total b) : Total (if c then a else b) := by
  split
  · exact ha
  · exact hb
theorem each {α : Type} {f : α → V} (h : ∀ x, Total (f x)) : ∀ l, Total (V.each f l)
  | [] => skip
  | x :: l => seq (h x) (each h l)
theorem print {env : Env} (h : TargetsOk env) (l msg ent line vs pl) : Total (verbosePrint env l msg ent line vs pl) :=
  verbosePrint_ok h l msg ent line vs pl
theorem enter (env : Env) (m : Node) : Total (genEnter env m) := by
  refine seq (seq ?_ (upd _)) (when (rd fun s => when (upd _)))
  cases m.info.line with
  | none => exact skip
  | some l => exact upd _
end Total

theorem closed_total {env : Env} (h : TargetsOk env) (n : Node) :
    Closed env env.display n (fun _ => True) (fun v _ => Total v) (fun ev => ∀ e, ev ≠ .raise e) where
  skip := .skip
  seq ha hb := ha.seq hb
  excl _ := rfl
  feats _ := rfl
  init := rfl
  rdMods hf := .rd fun s => hf s s.findings rfl trivial
  raise he := absurd rfl (he _)
  print l msg ent line vs pl _ := Total.print h l msg ent line vs pl
  flag _ := .upd _
  module _ _ _ := .rd fun _ => .ite (.print h _ _ _ _ _ _) (.ite (.print h _ _ _ _ _ _) (.when (.upd _)))
  member _ _ _ := .rd fun _ => .ite (.print h _ _ _ _ _ _) (.ite (.print h _ _ _ _ _ _) (.when (.upd _)))
  kwarg _ _ := .rd fun _ => .ite (.print h _ _ _ _ _ _) (.ite (.print h _ _ _ _ _ _) (.when (.upd _)))
  deco _ _ := .rd fun _ => .ite (.print h _ _ _ _ _ _) (.ite (.print h _ _ _ _ _ _) (.when (.upd _)))
  strftime _ _ := .upd _
  bytesDir _ _ := .upd _
  typecode _ _ _ := .rd fun _ => .when (.upd _)
  errorHandler _ _ := .ite (.print h _ _ _ _ _ _) (.upd _)
  encoding _ _ := .ite (.print h _ _ _ _ _ _) (.upd _)
  userDef _ := .upd _
  nameRes _ := .upd _
  nameResType _ := .upd _
  moduleAs _ := .upd _
  importMem _ := .upd _
  callScope _ ha := .seq (.seq (.upd _) ha) (.upd _)
  pop _ := .upd _
  yield _ := .upd _
  await _ := .upd _
  ellipsis _ := .upd _
  gen m _ _ ha := .seq (.seq (.enter env m) ha) (.upd _)
  inScope ha := .rd fun _ => .seq ha (.upd _)
  yieldScope ha := .rd fun _ => .seq ha (.upd _)
  asyncScope _ _ ha := .rd fun _ => .seq (.seq (.seq ha (.seq (.upd _) (.print h _ _ _ _ _ _)))
    (.rd fun _ => .when (.seq (.upd _) (.print h _ _ _ _ _ _)))) (.upd _)
  compScope _ ha := .rd fun _ => .seq (.seq ha (.rd fun _ => .when (.seq (.upd _) (.print h _ _ _ _ _ _)))) (.upd _)
  forScope _ ha hb hc := .seq (.upd _) (.rd fun _ => .seq (.seq (.seq (.seq ha hb) hc) (.upd _)) (.upd _))
  whileScope _ ha := .seq (.seq (.upd _) ha) (.upd _)
  tryScope _ ha hb := .seq (.seq (.seq (.upd _) ha) (.upd _)) hb

/-- Under a condition on the node -/
theorem Closed.guard {env : Env} {d : Display} {n : Node} {I : S → Prop} {Q : V → V → Prop} {A : Event → Prop} {P : Prop} (h : P → Closed env d n I Q A)
    (excl : ∀ x, d.exclusions.contains x = env.cfg.exclusions.contains x) (feats : ∀ x, d.features.contains x = env.cfg.features.contains x)
    (init : (env.show d).isInitFile = env.isInitFile) :
    Closed env d n I (fun v v' => P → Q v v') (fun ev => P → A ev) where
  skip p := (h p).skip
  seq ha hb p := (h p).seq (ha p) (hb p)
  excl := excl
  feats := feats
  init := init
  rdMods hf p := (h p).rdMods fun s x hx hs => hf s x hx hs p
  raise he p := (h p).raise (he p)
  print l msg ent line vs pl hl p := (h p).print l msg ent line vs pl hl
  flag he p := (h p).flag (he p)
  module l c he p := (h p).module l c (he p)
  member l c he p := (h p).member l c (he p)
  kwarg l he p := (h p).kwarg l (he p)
  deco l he p := (h p).deco l (he p)
  strftime l he p := (h p).strftime l (he p)
  bytesDir l he p := (h p).bytesDir l (he p)
  typecode l c he p := (h p).typecode l c (he p)
  errorHandler l he p := (h p).errorHandler l (he p)
  encoding l he p := (h p).encoding l (he p)
  userDef he p := (h p).userDef (he p)
  nameRes he p := (h p).nameRes (he p)
  nameResType he p := (h p).nameResType (he p)
  moduleAs he p := (h p).moduleAs (he p)
  importMem he p := (h p).importMem (he p)
  callScope he ha p := (h p).callScope (he p) (ha p)
  pop hu p := (h p).pop hu
  yield he p := (h p).yield (he p)
  await he p := (h p).await (he p)
  ellipsis he p := (h p).ellipsis (he p)
  gen m _ _ ha p := (h p).gen m (ha p)
  inScope ha p := (h p).inScope (ha p)
  yieldScope ha p := (h p).yieldScope (ha p)
  asyncScope hk he ha p := (h p).asyncScope hk (he p) (ha p)
  compScope hk ha p := (h p).compScope hk (ha p)
  forScope hk ha hb hc p := (h p).forScope hk (ha p) (hb p) (hc p)
  whileScope hk ha p := (h p).whileScope hk (ha p)
  tryScope hk ha hb p := (h p).tryScope hk (ha p) (hb p)

theorem visit_total {env : Env} (h : TargetsOk env) {root : Node} (hp : Parsed root) (ht : Tame env root) : Total (visit env root) :=
  visit_closed (d := env.display) (I := fun _ _ => True) (Q := fun n v _ => In n root → Total v) (A := fun n ev => In n root → ∀ e, ev ≠ .raise e)
    (fun n => (closed_total h n : Closed _ _ _ _ _ _) |> fun c => Closed.guard (fun _ => c) (fun _ => rfl) (fun _ => rfl) (show (env.show env.display).isInitFile = env.isInitFile from rfl))
    (fun n ev hev hn e he => emits_raise hp ht hn e (he ▸ hev))
    (fun n k hk v _ hv hn => hv (In.trans (.kid hk (.self _)) hn)) root (.self _)

theorem tour_total {env : Env} (h : TargetsOk env) {root : Node} (hp : Parsed root) (ht : Tame env root) : Total (tour env root) :=
  .seq (visit_total h hp ht) (.rd fun _ => .each (fun _ => .rd fun _ =>
    .seq (.seq (.seq (.each (fun _ => .print h _ _ _ _ _ _) _) (.upd _)) (.each (fun _ => .print h _ _ _ _ _ _) _)) (.upd _)) _)

end Vermin
