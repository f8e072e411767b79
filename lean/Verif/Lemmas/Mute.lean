import Verif.Lemmas.Closure
import Verif.Lemmas.Display
/-
At low verbosity the visitor prints nothing.
-/
namespace Vermin
open Py V Spec

/-- Nothing is printed. -/
def Mute (v : V) : Prop := ∀ s t, v s = .ok t → t.out = s.out

namespace Mute
theorem skip : Mute skip := fun s t h => by injection h with h; rw [h]
theorem seq {a b : V} (ha : Mute a) (hb : Mute b) : Mute (a ;; b) := fun s t h => by
  obtain ⟨u, h1, h2⟩ := seq_run h
  rw [hb u t h2, ha s u h1]
theorem rd {f : S → V} (hf : ∀ s, Mute (f s)) : Mute (rd f) := fun s t h => hf s s t h
theorem when {c : Bool} {a : V} (ha : Mute a) : Mute (when c a) := by
  cases c with
  | true => exact ha
  | false => exact .skip
theorem upd {f : S → S} (hf : ∀ s, (f s).out = s.out) : Mute (upd f) := fun s t h => by rw [upd_run h]; exact hf s
theorem flag (f : Flag) : Mute (setFlag f) := .upd fun s => by unfold S.set; split <;> rfl
theorem inScope {a : V} (ha : Mute a) : Mute (inScope a) := .rd fun _ => .seq ha (.upd fun _ => rfl)
theorem each {α : Type} {f : α → V} (h : ∀ x, Mute (f x)) : ∀ l, Mute (each f l)
  | [] => .skip
  | x :: l => .seq (h x) (each h l)

variable {env : Env} (hv : env.cfg.verbose < 2)
include hv
theorem print (l msg ent line vs pl) (hl : 2 ≤ l) : Mute (verbosePrint env l msg ent line vs pl) := fun s t h => by
  unfold verbosePrint at h
  cases hw : violates env vs with
  | error e => rw [hw] at h; cases h
  | ok b =>
    rw [hw] at h
    have hd : decide (env.cfg.verbose < l) = true := decide_eq_true (by omega)
    rw [hd] at h
    simp only [V.lift, Bool.or_true, Bool.not_true, Bool.and_false, V.when] at h
    exact skip s t h
end Mute

theorem genEnter_mute {env : Env} (hp : env.cfg.printVisits = false) (m : Node) : Mute (genEnter env m) := by
  unfold genEnter
  rw [hp]
  refine .seq (.seq ?_ (.upd fun _ => rfl)) .skip
  cases m.info.line with
  | none => exact .skip
  | some l => exact .upd fun _ => rfl

variable {env : Env}

theorem closed_mute (hv : env.cfg.verbose < 2) (hp : env.cfg.printVisits = false) (n : Node) : Closed env env.display n (fun _ => True) (fun v _ => Mute v) (fun _ => True) where
  skip := .skip
  seq := .seq
  excl _ := rfl
  feats _ := rfl
  init := rfl
  rdMods hf := .rd fun s => hf s s.findings rfl trivial
  raise _ := fun s t h => by cases h
  print l msg ent line vs pl hl := .print hv l msg ent line vs pl hl
  flag _ := .flag _
  module {m} l c hf := by
    refine .rd fun s => ?_
    split
    · exact .print hv _ _ _ _ _ _ (by decide)
    · split
      · exact .print hv _ _ _ _ _ _ (by decide)
      · refine .when (.upd fun s => ?_)
        obtain ⟨d, hd⟩ := addLineCol_with { s with modules := s.modules ++ [m] } (.name m) l c
        rw [hd]
  member {m} l c hf := by
    refine .rd fun s => ?_
    split
    · exact .print hv _ _ _ _ _ _ (by decide)
    · split
      · exact .print hv _ _ _ _ _ _ (by decide)
      · refine .when (.upd fun s => ?_)
        obtain ⟨d, hd⟩ := addLineCol_with { s with members := s.members ++ [m] } (.name m) l c
        rw [hd]
  kwarg {f k} l hf := by
    refine .rd fun s => ?_
    split
    · exact .print hv _ _ _ _ _ _ (by decide)
    · split
      · exact .print hv _ _ _ _ _ _ (by decide)
      · exact .when (.upd fun s => rfl)
  deco {u} l hf := by
    refine .rd fun s => ?_
    split
    · exact .print hv _ _ _ _ _ _ (by decide)
    · split
      · exact .print hv _ _ _ _ _ _ (by decide)
      · exact .when (.upd fun s => rfl)
  strftime l hf := .upd fun s => rfl
  bytesDir l hf := .upd fun s => rfl
  typecode l c hf := .rd fun s => .when (.upd fun s => rfl)
  errorHandler {c} l hf := by
    unfold addErrorHandler
    split
    · exact .print hv _ _ _ _ _ _ (by decide)
    · exact .upd fun s => rfl
  encoding {c} l hf := by
    unfold addEncoding
    split
    · exact .print hv _ _ _ _ _ _ (by decide)
    · exact .upd fun s => rfl
  userDef _ := .upd fun s => rfl
  nameRes _ := .upd fun s => rfl
  nameResType _ := .upd fun s => rfl
  moduleAs _ := .upd fun s => rfl
  importMem _ := .upd fun s => rfl
  callScope {x a _} _ ha := .seq (.seq (.upd fun s => rfl) ha) (.upd fun s => rfl)
  pop hu := .upd fun s => rfl
  yield hy := .upd fun s => rfl
  await hy := .upd fun s => rfl
  ellipsis _ := .upd fun s => rfl
  gen m a _ ha := .seq (.seq (genEnter_mute hp m) ha) (.upd fun s => rfl)
  inScope ha := .inScope ha
  yieldScope {a _} ha := .rd fun s => ha.seq (.upd fun s => rfl)
  asyncScope {a a' name} _ hf ha := .rd fun s => .seq (.seq (.seq ha (.seq (.flag _) (.print hv _ _ _ _ _ _ (by decide))))
    (.rd fun s' => .when (.seq (.flag _) (.print hv _ _ _ _ _ _ (by decide))))) (.upd fun s => rfl)
  compScope {a a' b} _ ha := .rd fun s => .seq (.seq ha
    (.rd fun s' => .when (.seq (.flag _) (.print hv _ _ _ _ _ _ (by decide))))) (.upd fun s => rfl)
  forScope {a b c _ _ _} _ ha hb hc := .seq (.upd fun s => rfl) (.inScope (.seq (.seq (.seq ha hb) hc) (.upd fun s => rfl)))
  whileScope _ ha := .seq (.seq (.upd fun s => rfl) ha) (.upd fun s => rfl)
  tryScope _ ha hb := .seq (.seq (.seq (.upd fun s => rfl) ha) (.upd fun s => rfl)) hb

theorem visit_mute (hv : env.cfg.verbose < 2) (hp : env.cfg.printVisits = false) (n : Node) : Mute (visit env n) :=
  visit_closed (d := env.display) (I := fun _ _ => True) (Q := fun _ v _ => Mute v) (A := fun _ _ => True) (closed_mute hv hp) (fun _ _ _ => trivial)
    (fun _ _ _ _ _ h => h) n

theorem removeDef_mute (hv : env.cfg.verbose < 2) (u : String) : Mute (removeDef env u) := by
  have h : ∀ msg, Mute (vvvv env msg) := fun msg => .print hv _ _ _ _ _ _ (by decide)
  refine .rd fun s => ?_
  exact .seq (.seq (.seq (.each (fun _ => h _) _) (.upd fun _ => rfl)) (.each (fun _ => h _) _)) (.upd fun _ => rfl)

theorem tour_mute (hv : env.cfg.verbose < 2) (hp : env.cfg.printVisits = false) (n : Node) : Mute (tour env n) :=
  .seq (visit_mute hv hp n) (.rd fun _ => .each (removeDef_mute hv) _)

/-! ### `minimum_versions` -/

/-- Nothing is printed. -/
def MuteM (f : M) : Prop := ∀ x y, f x = .ok y → y.1.out = x.1.out

namespace MuteM
theorem pure : MuteM (fun x => .ok x) := fun x y h => by injection h with h; rw [h]
theorem raise (e : Err) : MuteM (fun _ => .error e) := fun x y h => by cases h
theorem thenM {a b : M} (ha : MuteM a) (hb : MuteM b) : MuteM (thenM a b) := fun x y h => by
  unfold Vermin.thenM at h
  cases hx : a x with
  | error e => rw [hx] at h; cases h
  | ok z => rw [hx] at h; exact (hb z y h).trans (ha x z hx)
theorem eachM {α : Type} {f : α → M} (h : ∀ a, MuteM (f a)) : ∀ l, MuteM (eachM f l)
  | [] => pure
  | a :: l => fun x y hy => by
    unfold Vermin.eachM at hy
    cases hx : f a x with
    | error e => rw [hx] at hy; cases hy
    | ok z => rw [hx] at hy; exact (eachM h l z y hy).trans (h a x z hx)

theorem entity (hv : env.cfg.verbose < 2) (r : Req) (info : Option String) (ent : Option Ent) : MuteM (addEntity env r info ent) := fun x y h => by
  obtain ⟨s, m⟩ := x
  unfold addEntity at h
  dsimp only at h
  have hi : Mute (infoStep env r info ent) := by
    intro s t h
    unfold infoStep at h
    cases hw : violates env (some r) with
    | error e => rw [hw] at h; cases h
    | ok b =>
      rw [hw] at h
      refine Mute.when (c := b) ?_ s t h
      cases info with
      | none => exact .skip
      | some i =>
        have hu : Mute (upd fun s => s.addInfo r i) := .upd fun s => rfl
        have he : Mute (opt ent skip fun e => vv env i (some r) .absent none (some e)) := by
          cases ent with
          | none => exact .skip
          | some e => exact .print hv 2 _ _ _ _ _ (by decide)
        exact .seq hu he
  cases hx : infoStep env r info ent s with
  | error e => rw [hx] at h; cases h
  | ok t =>
    rw [hx] at h
    dsimp only at h
    cases hc : combineVersions env.cfg.ignoreIncomp m r (some t.infoVersions) with
    | error e => rw [hc] at h; cases h
    | ok m' =>
      rw [hc] at h
      injection h with h
      rw [← h]
      exact hi s t hx
theorem rule (hv : env.cfg.verbose < 2) (r : Option Req) (info : String) (ent : Ent) : MuteM (ruleM env r info ent) := by
  cases r with
  | none => exact pure
  | some r => exact entity hv r _ _
end MuteM

theorem minimumVersions_mute (hv : env.cfg.verbose < 2) {s t : S} {m : Req} (h : minimumVersions env s = .ok (t, m)) : t.out = s.out := by
  have hp : MuteM (printM env) := fun x y h => by
    obtain ⟨s, m⟩ := x
    unfold printM at h
    dsimp only at h
    split at h
    · cases hx : (vv env "print(expr)" (from23 0 0) .hide : V) s with
      | error e => rw [hx] at h; cases h
      | ok u => rw [hx] at h; exact (MuteM.entity hv _ _ _ _ _ h).trans (Mute.print hv _ _ _ _ _ _ (by decide) s u hx)
    · injection h with h; rw [← h]
  have hf : ∀ f, MuteM (featureM env f) := fun f x y h => by
    obtain ⟨s, m⟩ := x
    unfold featureM at h
    dsimp only at h
    split at h
    · exact MuteM.entity hv _ _ _ _ _ h
    · injection h with h; rw [← h]
  have he : ∀ s, MuteM (entitiesM env s) := fun s => by
    unfold entitiesM kwargM
    refine .thenM (.eachM (fun a => .rule hv _ _ _) _) (.thenM (.eachM (fun a => .rule hv _ _ _) _) (.thenM (.eachM (fun a => .rule hv _ _ _) _) (.thenM (.eachM (fun c => ?_) _)
      (.thenM (.eachM (fun c => .eachM (fun e => ?_) _) _) (.thenM (.eachM (fun a => .rule hv _ _ _) _) (.thenM (.eachM (fun a => .rule hv _ _ _) _)
        (.thenM (.eachM (fun a => .rule hv _ _ _) _) (.eachM (fun a => .rule hv _ _ _) _))))))))
    · cases c with
      | str n => exact .rule hv _ _ _
      | _ => exact .pure
    · cases c with
      | str n =>
        unfold encodingEntryM
        dsimp only
        by_cases hx : e.1.contains (lowerStr n) = true
        · simp only [hx, if_true]; exact .entity hv e.2 _ _
        · simp only [hx]; exact .pure
      | bytes t =>
        obtain ⟨k, r⟩ := e
        cases k with
        | text _ => exact .raise _
        | names _ => exact .pure
      | _ => exact .raise _
  exact MuteM.thenM hp (.thenM (.eachM hf _) fun x y h => he x.1 x y h) _ _ h

end Vermin
