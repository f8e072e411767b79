import Verif.Spec.Beside
import Verif.Lemmas.Relax
import Verif.Lemmas.Reads
import Verif.Lemmas.Dict
/-
Two visits of the same statements, from states that agree on the names in them, the second having found more.
-/
namespace Vermin
open Py V Spec Node

/-- Names, some of which are set apart: those that have certain words. -/
structure Apart (K : String → Prop) : Prop where
  dotted : ∀ l : List (Option String), (∀ x, some x ∈ l → K x) → K (dotted l)
  words : ∀ x, K x → ∀ w ∈ splitDots x, K w
  value : ∀ w ∈ valueWords, K w

theorem Apart.dot {K : String → Prop} (hK : Apart K) {a b : String} (ha : K a) (hb : K b) : K (a ++ "." ++ b) := by
  rw [← dotted_pair]
  exact hK.dotted _ fun x hx => by
    simp only [List.mem_cons, Option.some.injEq, List.not_mem_nil, or_false] at hx
    rcases hx with rfl | rfl
    · exact ha
    · exact hb

/-- The names in a program, and its ellipses. -/
def Foreign (K : String → Prop) (U : Nat → Prop) (E : Prop) (n : Node) : Prop :=
  ∀ m, In m n → (∀ x ∈ m.kind.identifiers, K x) ∧ (m.kind = .const .ellipsis → ¬ U m.info.uid) ∧ (E → ∀ x ∈ m.kind.ownNames, '.' ∉ x.toList)

section
variable {K : String → Prop} {U : Nat → Prop} {E : Prop} {n k : Node}
theorem Foreign.inner (h : Foreign K U E n) (hk : In k n) : Foreign K U E k := fun m hm => h m (In.trans hm hk)
theorem Foreign.kid (h : Foreign K U E n) (hk : k ∈ n.kids) : Foreign K U E k := h.inner (.kid hk (.self _))
theorem Foreign.field (h : Foreign K U E n) {f : Fld} (hk : n.field f = some k) : Foreign K U E k := h.kid (field_mem hk)
theorem Foreign.fields (h : Foreign K U E n) {f : Fld} (hk : k ∈ n.fields f) : Foreign K U E k := h.kid (fields_mem hk)
theorem Foreign.names (h : Foreign K U E n) : ∀ x ∈ n.kind.identifiers, K x := (h n (.self n)).1
theorem Foreign.own (h : Foreign K U E n) {x : String} (hx : x ∈ n.kind.ownNames) (hE : E) : '.' ∉ x.toList := (h n (.self n)).2.2 hE x hx
theorem Foreign.nameId (h : Foreign K U E n) {x : String} (hx : n.nameId = some x) : K x := by
  refine h.names x ?_
  unfold Node.nameId at hx
  split at hx
  · next e => cases hx; rw [e]; exact List.mem_singleton.mpr rfl
  · cases hx
theorem Foreign.boundName (h : Foreign K U E n) {f : Fld} {x : String} (hx : (n.field f).bind Node.nameId = some x) : K x := by
  cases hf : n.field f with
  | none => rw [hf] at hx; cases hx
  | some k => rw [hf] at hx; exact (h.field hf).nameId hx
end

/-- Dictionaries that agree on names. -/
structure Agree (K : String → Prop) (d d' : Dict String String) : Prop where
  same : ∀ x, K x → Dict.get? d' x = Dict.get? d x
  kept : ∀ x v, K x → Dict.get? d x = some v → K v

theorem Agree.set {K : String → Prop} {d d' : Dict String String} (h : Agree K d d') (x : String) {v : String} (hv : K v) :
    Agree K (Dict.set d x v) (Dict.set d' x v) := by
  refine ⟨fun z hz => ?_, fun z w hz => ?_⟩
  · rw [Dict.get?_set, Dict.get?_set, h.same z hz]
  · rw [Dict.get?_set]
    split
    · intro e; cases e; exact hv
    · exact h.kept z w hz

/-- What visits do not lose. -/
structure Retains (s t : S) : Prop where
  flags : ∀ f ∈ s.flags, f ∈ t.flags
  modules : ∀ f ∈ s.modules, f ∈ t.modules
  members : ∀ f ∈ s.members, f ∈ t.members
  kwargs : ∀ f ∈ s.kwargs, f ∈ t.kwargs
  decos : ∀ f ∈ s.userFuncDecos, f ∈ t.userFuncDecos
  strftime : ∀ f ∈ s.strftime, f ∈ t.strftime
  bytesDirs : ∀ f ∈ s.bytesDirs, f ∈ t.bytesDirs
  typecodes : ∀ f ∈ s.typecodes, f ∈ t.typecodes
  errs : ∀ f ∈ s.codecsErr, f ∈ t.codecsErr
  encs : ∀ f ∈ s.codecsEnc, f ∈ t.codecsEnc

theorem Retains.refl (s : S) : Retains s s := by constructor <;> exact fun _ h => h
theorem Retains.trans {s t u : S} (h : Retains s t) (k : Retains t u) : Retains s u :=
  ⟨fun f hf => k.flags f (h.flags f hf), fun f hf => k.modules f (h.modules f hf), fun f hf => k.members f (h.members f hf),
   fun f hf => k.kwargs f (h.kwargs f hf), fun f hf => k.decos f (h.decos f hf), fun f hf => k.strftime f (h.strftime f hf),
   fun f hf => k.bytesDirs f (h.bytesDirs f hf), fun f hf => k.typecodes f (h.typecodes f hf), fun f hf => k.errs f (h.errs f hf),
   fun f hf => k.encs f (h.encs f hf)⟩

/-- The second state has found nothing but the first has, or others before. -/
structure Gains (E : Prop) (b s s' : S) : Prop where
  flagsIn : E → ∀ f ∈ s'.flags, f ∈ s.flags ∨ f ∈ b.flags
  modulesIn : E → ∀ f ∈ s'.modules, f ∈ s.modules ∨ f ∈ b.modules
  membersIn : E → ∀ f ∈ s'.members, f ∈ s.members ∨ f ∈ b.members
  kwargsIn : E → ∀ f ∈ s'.kwargs, f ∈ s.kwargs ∨ f ∈ b.kwargs
  decosIn : E → ∀ f ∈ s'.userFuncDecos, f ∈ s.userFuncDecos ∨ f ∈ b.userFuncDecos
  strftimeIn : E → ∀ f ∈ s'.strftime, f ∈ s.strftime ∨ f ∈ b.strftime
  bytesDirsIn : E → ∀ f ∈ s'.bytesDirs, f ∈ s.bytesDirs ∨ f ∈ b.bytesDirs
  typecodesIn : E → ∀ f ∈ s'.typecodes, f ∈ s.typecodes ∨ f ∈ b.typecodes
  errsIn : E → ∀ f ∈ s'.codecsErr, f ∈ s.codecsErr ∨ f ∈ b.codecsErr
  encsIn : E → ∀ f ∈ s'.codecsEnc, f ∈ s.codecsEnc ∨ f ∈ b.codecsEnc

theorem in_append {α : Type} {E : Prop} {l l' lb : List α} {a : α} (h : E → ∀ m ∈ l', m ∈ l ∨ m ∈ lb) : E → ∀ m ∈ l' ++ [a], m ∈ l ++ [a] ∨ m ∈ lb := fun e m hm => by
  rcases List.mem_append.mp hm with hm | hm
  · exact (h e m hm).imp (fun h => List.mem_append.mpr (.inl h)) id
  · exact .inl (List.mem_append.mpr (.inr hm))
theorem in_more {α : Type} {E : Prop} {l l' lb : List α} {a : α} (h : E → ∀ m ∈ l', m ∈ l ∨ m ∈ lb) : E → ∀ m ∈ l', m ∈ l ++ [a] ∨ m ∈ lb := fun e m hm =>
  (h e m hm).imp (fun h => List.mem_append.mpr (.inl h)) id

/-- The second state agrees with the first on names, is at the same place, and has found more; it may have counted more `yield` and `await`. -/
structure Beside (K : String → Prop) (U : Nat → Prop) (E : Prop) (b : S) (s s' : S) : Prop extends Retains s s', Gains E b s s' where
  renames : Agree K s.moduleAs s'.moduleAs
  origins : Agree K s.importMemMod s'.importMemMod
  results : Agree K s.nameRes s'.nameRes
  types : ∀ x, K x → Dict.get? s'.nameResType x = Dict.get? s.nameResType x
  typesKept : ∀ x ts, K x → Dict.get? s.nameResType x = some ts → ∀ t ∈ ts, K t
  defs : ∀ x, K x → (x ∈ s'.userDefs ↔ x ∈ s.userDefs)
  defsIn : ∀ x ∈ s'.userDefs, x ∈ s.userDefs ∨ x ∈ b.userDefs
  defsOld : ∀ x ∈ b.userDefs, x ∈ s'.userDefs
  depth : s'.depth = s.depth
  loops : s'.seenFor = s.seenFor
  whiles : s'.seenWhile = s.seenWhile
  finals : s'.tryFinally = s.tryFinally
  yields : s'.seenYield = s.seenYield + b.seenYield
  awaits : s'.seenAwait = s.seenAwait + b.seenAwait
  calls : s'.fnStack = s.fnStack
  callsKept : ∀ f ∈ s.fnStack, K f
  slices : ∀ u, ¬ U u → (u ∈ s'.ellipsisInSlices ↔ u ∈ s.ellipsisInSlices)
  modulesKept : ∀ m ∈ s.modules, K m
  membersKept : ∀ m ∈ s.members, K m
  strange : E → ∀ m ∈ b.modules, ¬ K m
  plain : E → ∀ x ∈ s.userDefs, '.' ∉ x.toList
  sources : E → ∀ x m, Dict.get? s.importMemMod x = some m → m ++ "." ++ x ∈ s.modules

/-- Both end with such states, or both with errors. -/
def BesideOut (K : String → Prop) (U : Nat → Prop) (E : Prop) (b : S) : Except Err S → Except Err S → Prop
  | .ok t, .ok t' => Beside K U E b t t'
  | .error _, .error _ => True
  | _, _ => False

/-- Actions that keep states beside each other. -/
structure Abreast (K : String → Prop) (U : Nat → Prop) (E : Prop) (b : S) (v v' : V) : Prop where
  run : ∀ s s', Beside K U E b s s' → BesideOut K U E b (v s) (v' s')

variable {K : String → Prop} {U : Nat → Prop} {E : Prop} {b : S}

theorem Beside.contains {s s' : S} (h : Beside K U E b s s') {x : String} (hx : K x) : s'.userDefs.contains x = s.userDefs.contains x := by
  rw [Bool.eq_iff_iff, List.contains_iff_mem, List.contains_iff_mem]
  exact h.defs x hx

namespace Abreast
theorem skip : Abreast K U E b skip skip := ⟨fun _ _ h => h⟩
theorem seq {v v' w w' : V} (hv : Abreast K U E b v v') (hw : Abreast K U E b w w') : Abreast K U E b (v ;; w) (v' ;; w') := ⟨fun s s' h => by
  have h := hv.run s s' h
  show BesideOut K U E b (V.seq v w s) (V.seq v' w' _)
  unfold V.seq
  revert h
  cases v s with
  | ok t =>
    cases v' s' with
    | ok t' => exact fun h => hw.run t t' h
    | error e => exact False.elim
  | error e =>
    cases v' s' with
    | ok t' => exact False.elim
    | error e' => exact id⟩
theorem rd {f f' : S → V} (h : ∀ s s', Beside K U E b s s' → Abreast K U E b (f s) (f' s')) : Abreast K U E b (V.rd f) (V.rd f') :=
  ⟨fun s s' hs => (h s s' hs).run s s' hs⟩
theorem raise (x : Err) : Abreast K U E b (fun _ => .error x) (fun _ => .error x) := ⟨fun _ _ _ => trivial⟩
theorem upd {f f' : S → S} (h : ∀ s s', Beside K U E b s s' → Beside K U E b (f s) (f' s')) : Abreast K U E b (V.upd f) (V.upd f') := ⟨h⟩
theorem when {c : Bool} {v v' : V} (h : Abreast K U E b v v') : Abreast K U E b (V.when c v) (V.when c v') := by
  cases c with
  | true => exact h
  | false => exact skip
theorem alt {c : Bool} {v v' w w' : V} (h : Abreast K U E b v v') (k : Abreast K U E b w w') : Abreast K U E b (V.alt c v w) (V.alt c v' w') := by
  cases c with
  | true => exact h
  | false => exact k
theorem ite {c : Prop} [Decidable c] {v v' w w' : V} (h : Abreast K U E b v v') (k : Abreast K U E b w w') :
    Abreast K U E b (if c then v else w) (if c then v' else w') := by
  split
  · exact h
  · exact k
theorem lift {α : Type} {x : Except Err α} {f f' : α → V} (h : ∀ z, x = .ok z → Abreast K U E b (f z) (f' z)) : Abreast K U E b (V.lift x f) (V.lift x f') := by
  cases x with
  | ok z => exact h z rfl
  | error e => exact raise e
theorem opt {α : Type} {x : Option α} {v v' : V} {f f' : α → V} (h0 : Abreast K U E b v v') (h : ∀ z, x = some z → Abreast K U E b (f z) (f' z)) :
    Abreast K U E b (V.opt x v f) (V.opt x v' f') := by
  cases x with
  | none => exact h0
  | some z => exact h z rfl
theorem each {α : Type} {f f' : α → V} : ∀ l : List α, (∀ x ∈ l, Abreast K U E b (f x) (f' x)) → Abreast K U E b (V.each f l) (V.each f' l)
  | [], _ => skip
  | x :: l, h => seq (h x (by simp)) (each l fun z hz => h z (by simp [hz]))
theorem scope {v v' : V} (h : Abreast K U E b v v') : Abreast K U E b (inScope v) (inScope v') :=
  rd fun _ _ hs => seq h (upd fun _ _ ht => { ht with defs := hs.defs, plain := hs.plain, defsIn := hs.defsIn, defsOld := hs.defsOld })
theorem flag (f : Flag) : Abreast K U E b (setFlag f) (setFlag f) := upd fun s s' h =>
  have e : ∀ (s : S) g, g ∈ (s.set f).flags ↔ g ∈ s.flags ∨ g = f := fun s g => by
    show g ∈ (if s.flags.contains f then s.flags else s.flags ++ [f]) ↔ _
    split
    · next hc => exact ⟨.inl, fun h => h.elim id fun h => h ▸ List.contains_iff_mem.mp hc⟩
    · simp
  { h with
    flags := fun g hg => by
      rw [e] at hg ⊢
      exact hg.imp (h.flags g) id
    flagsIn := fun hE g hg => by
      rw [e] at hg ⊢
      rcases hg with hg | hg
      · exact (h.flagsIn hE g hg).imp .inl id
      · exact .inl (.inr hg) }

section
variable {env : Env}
theorem print (l msg msg' ent ent' line line' vs pl) : Abreast K U E b (verbosePrint env l msg ent line vs pl) (verbosePrint env l msg' ent' line' vs pl) :=
  lift fun _ _ => when (upd fun _ _ h => { h with })
theorem found (f : Flag) (msg msg' : String) (vs : Option Req) (line line' : LineArg) (pl : Option Bool) :
    Abreast K U E b (found env f msg vs line pl) (Vermin.found env f msg' vs line' pl) := seq (flag f) (print ..)
theorem nprint (msg msg' : String) : Abreast K U E b (nprintV env msg) (nprintV env msg') := when (upd fun _ _ h => { h with })

/-- An entity is found. -/
theorem find {f f' : S → S} (hf : ∀ s s', Beside K U E b s s' → Beside K U E b (f s) (f' s')) (x x' : Ent) (l l' c c' : Option Nat) :
    Abreast K U E b (V.upd fun s => (f s).addLineCol x l c) (V.upd fun s => (f' s).addLineCol x' l' c') := upd fun s s' h => by
  have h := hf s s' h
  cases l <;> cases l' <;> exact { h with }

/-- Modules and members are found. -/
theorem touch {v v' : V} (h : ∀ s s', Beside K U E b s s' → ∃ t t', v s = .ok t ∧ v' s' = .ok t' ∧ Touches s t ∧ Touches s' t' ∧
    (∀ m ∈ t.modules, m ∈ t'.modules ∧ K m) ∧ (∀ m ∈ t.members, m ∈ t'.members ∧ K m) ∧ (E → ∀ m ∈ t'.modules, m ∈ t.modules ∨ m ∈ b.modules) ∧
    (E → ∀ m ∈ t'.members, m ∈ t.members ∨ m ∈ b.members) ∧ ∀ m ∈ s.modules, m ∈ t.modules) : Abreast K U E b v v' := ⟨fun s s' hs => by
  obtain ⟨t, t', h1, h2, ⟨o, l, ms, bs, rfl⟩, ⟨o', l', ms', bs', rfl⟩, h3, h4, h5, h6, h7⟩ := h s s' hs
  rw [h1, h2]
  exact { hs with modules := fun m hm => (h3 m hm).1, members := fun m hm => (h4 m hm).1, modulesKept := fun m hm => (h3 m hm).2,
                  membersKept := fun m hm => (h4 m hm).2, modulesIn := h5, membersIn := h6, sources := fun hE x m hm => h7 _ (hs.sources hE x m hm) }⟩
end
end Abreast

theorem Beside.allowed {env : Env} {s s' : S} (h : Beside K U E b s s') {x : String} (hx : K x) : Allowed env s' x ↔ Allowed env s x := by
  unfold Allowed
  rw [h.defs x hx]

namespace Abreast
section
variable {env : Env} (ht : TargetsOk env)
include ht
omit ht in
theorem _root_.Vermin.Beside.added {s s' : S} (hs : Beside K U E b s s') {m : String} (hm : K m) {ms ms' : List String}
    (h4 : Allowed env s m ∧ m ∉ s.modules ∧ ms = s.modules ++ [m] ∨ ¬(Allowed env s m ∧ m ∉ s.modules) ∧ ms = s.modules)
    (k4 : Allowed env s' m ∧ m ∉ s'.modules ∧ ms' = s'.modules ++ [m] ∨ ¬(Allowed env s' m ∧ m ∉ s'.modules) ∧ ms' = s'.modules) :
    (∀ x ∈ ms, x ∈ ms' ∧ K x) ∧ (E → ∀ x ∈ ms', x ∈ ms ∨ x ∈ b.modules) ∧ (∀ x ∈ s.modules, x ∈ ms) ∧ (Allowed env s m → m ∈ ms) := by
  have sub' : ∀ x ∈ s'.modules, x ∈ ms' := fun x hx => by
    rcases k4 with ⟨_, _, k4⟩ | ⟨_, k4⟩ <;> rw [k4] <;> simp [hx]
  have sub : ∀ x ∈ s.modules, x ∈ ms := fun x hx => by
    rcases h4 with ⟨_, _, h4⟩ | ⟨_, h4⟩ <;> rw [h4] <;> simp [hx]
  have put : Allowed env s m → m ∈ ms := fun ha => by
    rcases h4 with ⟨_, _, h4⟩ | ⟨h5, h4⟩ <;> rw [h4]
    · simp
    · exact Classical.byContradiction fun hn => h5 ⟨ha, hn⟩
  have put' : Allowed env s' m → m ∈ ms' := fun ha => by
    rcases k4 with ⟨_, _, k4⟩ | ⟨k5, k4⟩ <;> rw [k4]
    · simp
    · exact Classical.byContradiction fun hn => k5 ⟨ha, hn⟩
  refine ⟨fun x hx => ?_, fun hE x hx => ?_, sub, put⟩
  · rcases h4 with ⟨ha, _, h4⟩ | ⟨_, h4⟩
    · rw [h4] at hx
      rcases List.mem_append.mp hx with hx | hx
      · exact ⟨sub' x (hs.modules x hx), hs.modulesKept x hx⟩
      · obtain rfl := List.mem_singleton.mp hx
        exact ⟨put' ((hs.allowed hm).mpr ha), hm⟩
    · rw [h4] at hx
      exact ⟨sub' x (hs.modules x hx), hs.modulesKept x hx⟩
  · rcases k4 with ⟨ha, _, k4⟩ | ⟨_, k4⟩
    · rw [k4] at hx
      rcases List.mem_append.mp hx with hx | hx
      · exact (hs.modulesIn hE x hx).imp (sub x) id
      · obtain rfl := List.mem_singleton.mp hx
        exact .inl (put ((hs.allowed hm).mp ha))
    · rw [k4] at hx
      exact (hs.modulesIn hE x hx).imp (sub x) id
theorem module {m : String} (hm : K m) (l l' c c') : Abreast K U E b (addModule env m l c) (addModule env m l' c') := touch fun s s' hs => by
  obtain ⟨t, h1, h2, h3, h4⟩ := addModule_run ht m l c s
  obtain ⟨t', k1, k2, k3, k4⟩ := addModule_run ht m l' c' s'
  obtain ⟨a1, a2, a3, _⟩ := hs.added hm h4 k4
  refine ⟨t, t', h1, k1, h2, k2, a1, fun x hx => ?_, a2, fun hE x hx => ?_, a3⟩
  · rw [h3] at hx
    rw [k3]
    exact ⟨hs.members x hx, hs.membersKept x hx⟩
  · rw [k3] at hx
    rw [h3]
    exact hs.membersIn hE x hx
/-- A name is imported from a module. -/
theorem importName {x m : String} (hm : K m) (hk : K (m ++ "." ++ x)) (he : E → m ++ "." ++ x ∉ env.cfg.exclusions) (l c) :
    Abreast K U E b ((V.upd fun s => { s with importMemMod := Dict.set s.importMemMod x m }) ;; addModule env (m ++ "." ++ x) l c)
      ((V.upd fun s => { s with importMemMod := Dict.set s.importMemMod x m }) ;; addModule env (m ++ "." ++ x) l c) := ⟨fun s s' hs => by
  show BesideOut K U E b (addModule env _ l c { s with importMemMod := Dict.set s.importMemMod x m }) (addModule env _ l c { s' with importMemMod := Dict.set s'.importMemMod x m })
  obtain ⟨t, h1, ⟨o, lc, ms, bs, rfl⟩, h3, h4⟩ := addModule_run ht (m ++ "." ++ x) l c { s with importMemMod := Dict.set s.importMemMod x m }
  obtain ⟨t', k1, ⟨o', lc', ms', bs', rfl⟩, k3, k4⟩ := addModule_run ht (m ++ "." ++ x) l c { s' with importMemMod := Dict.set s'.importMemMod x m }
  rw [h1, k1]
  obtain ⟨a1, a2, a3, a4⟩ := hs.added hk h4 k4
  have h3 : bs = s.members := h3
  have k3 : bs' = s'.members := k3
  subst h3 k3
  exact { hs with
    origins := hs.origins.set x hm
    modules := fun m hm => (a1 m hm).1
    modulesKept := fun m hm => (a1 m hm).2
    modulesIn := a2
    sources := fun hE z w hw => by
      have hw : Dict.get? (Dict.set s.importMemMod x m) z = some w := hw
      rw [Dict.get?_set] at hw
      split at hw
      · next e =>
        cases hw
        subst e
        refine a4 ⟨fun hd => ?_, he hE⟩
        exact hs.plain hE _ hd (by simp)
      · exact a3 _ (hs.sources hE z w hw) }⟩
theorem member {m : String} (hm : K m) (l l' c c') : Abreast K U E b (addMember env m l c) (addMember env m l' c') := touch fun s s' hs => by
  obtain ⟨t, h1, h2, h3, h4⟩ := addMember_run ht m l c s
  obtain ⟨t', k1, k2, k3, k4⟩ := addMember_run ht m l' c' s'
  have sub' : ∀ x ∈ s'.members, x ∈ t'.members := fun x hx => by
    rcases k4 with ⟨_, k4⟩ | ⟨_, k4⟩ <;> rw [k4] <;> simp [hx]
  have sub : ∀ x ∈ s.members, x ∈ t.members := fun x hx => by
    rcases h4 with ⟨_, h4⟩ | ⟨_, h4⟩ <;> rw [h4] <;> simp [hx]
  refine ⟨t, t', h1, k1, h2, k2, fun x hx => ?_, fun x hx => ?_, fun hE x hx => ?_, fun hE x hx => ?_, fun x hx => h3 ▸ hx⟩
  · rw [h3] at hx
    rw [k3]
    exact ⟨hs.modules x hx, hs.modulesKept x hx⟩
  · rcases h4 with ⟨ha, h4⟩ | ⟨_, h4⟩
    · rw [h4] at hx
      rcases List.mem_append.mp hx with hx | hx
      · exact ⟨sub' x (hs.members x hx), hs.membersKept x hx⟩
      · obtain rfl := List.mem_singleton.mp hx
        refine ⟨?_, hm⟩
        rcases k4 with ⟨_, k4⟩ | ⟨k5, k4⟩
        · rw [k4]; simp
        · exact absurd ⟨(hs.allowed hm).mpr ha.1, ha.2⟩ k5
    · rw [h4] at hx
      exact ⟨sub' x (hs.members x hx), hs.membersKept x hx⟩
  · rw [k3] at hx
    rw [h3]
    exact hs.modulesIn hE x hx
  · rcases k4 with ⟨ha, k4⟩ | ⟨_, k4⟩
    · rw [k4] at hx
      rcases List.mem_append.mp hx with hx | hx
      · exact (hs.membersIn hE x hx).imp (sub x) id
      · obtain rfl := List.mem_singleton.mp hx
        rcases h4 with ⟨_, h4⟩ | ⟨h5, h4⟩
        · rw [h4]; simp
        · exact absurd ⟨(hs.allowed hm).mp ha.1, ha.2⟩ h5
    · rw [k4] at hx
      exact (hs.membersIn hE x hx).imp (sub x) id
omit ht
/-- An entity is recorded once. -/
theorem once {α : Type} [BEq α] [LawfulBEq α] {g : S → List α} (hg : ∀ s s', Beside K U E b s s' → ∀ x ∈ g s, x ∈ g s') (x : α) {f : S → S} {x0 : Ent} {l l' c c' : Option Nat}
    (both : ∀ s s', Beside K U E b s s' → Beside K U E b (f s) (f s')) (left : ∀ s s', Beside K U E b s s' → x ∈ g s' → Beside K U E b (f s) s') :
    Abreast K U E b (V.rd fun s => V.when (!(g s).contains x) (V.upd fun s => (f s).addLineCol x0 l c))
      (V.rd fun s => V.when (!(g s).contains x) (V.upd fun s => (f s).addLineCol x0 l' c')) := ⟨fun s s' hs => by
  show BesideOut K U E b (V.when (!(g s).contains x) _ s) (V.when (!(g s').contains x) _ s')
  cases hc : (g s).contains x with
  | true =>
    rw [List.contains_iff_mem.mpr (hg s s' hs x (List.contains_iff_mem.mp hc))]
    exact hs
  | false =>
    cases hc' : (g s').contains x with
    | false => exact (find both x0 x0 l l' c c').run s s' hs
    | true =>
      have h := left s s' hs (List.contains_iff_mem.mp hc')
      show Beside K U E b ((f s).addLineCol x0 l c) s'
      cases l <;> exact { h with }⟩
theorem kwargs {f : String} (hf : K f) (k : Option String) (l l') : Abreast K U E b (addKwargs env f k l) (addKwargs env f k l') := ⟨fun s s' hs => by
  unfold addKwargs
  show BesideOut K U E b ((if _ then _ else _ : V) s) ((if _ then _ else _ : V) s')
  rw [hs.contains hf]
  split
  · exact (print ..).run s s' hs
  · split
    · exact (print ..).run s s' hs
    · exact (once (g := S.kwargs) (f := fun s => { s with kwargs := s.kwargs ++ [(f, k)] }) (fun _ _ h => h.kwargs) (f, k)
        (fun _ _ h => { h with kwargs := sub_append h.kwargs, kwargsIn := in_append h.kwargsIn })
        (fun _ _ h hx => { h with kwargs := fun z hz => (List.mem_append.mp hz).elim (h.kwargs z) fun e => List.mem_singleton.mp e ▸ hx, kwargsIn := in_more h.kwargsIn })).run s s' hs⟩
theorem deco {u : String} (hu : K u) (l l') : Abreast K U E b (addUserFuncDeco env u l) (addUserFuncDeco env u l') := rd fun s s' hs => by
  rw [hs.contains hu]
  exact ite (print ..) (ite (print ..) (when (by refine find (fun s s' h => ?_) ..; exact { h with decos := sub_append h.decos, decosIn := in_append h.decosIn })))
theorem userDef {x : String} (hx : E → '.' ∉ x.toList) : Abreast K U E b (addUserDef x) (addUserDef x) := upd fun s s' h =>
  have e : ∀ (z : String) (l : List String), z ∈ addSet l x ↔ z ∈ l ∨ z = x := fun z l => by
    unfold addSet
    split
    · next hc => exact ⟨.inl, fun h => h.elim id fun h => h ▸ List.contains_iff_mem.mp hc⟩
    · simp
  { h with
    defs := fun z hz => by rw [e, e, h.defs z hz]
    defsIn := fun z hz => by
      rw [e] at hz ⊢
      rcases hz with hz | hz
      · exact (h.defsIn z hz).imp .inl id
      · exact .inl (.inr hz)
    defsOld := fun z hz => (e z _).mpr (.inl (h.defsOld z hz))
    plain := fun hE z hz => by
      rw [e] at hz
      rcases hz with hz | rfl
      · exact h.plain hE z hz
      · exact hx hE }
theorem nameRes (x : String) {v : String} (hv : K v) : Abreast K U E b (addNameRes x v) (addNameRes x v) := upd fun _ _ h => { h with results := h.results.set x hv }
theorem nameResType {x v : String} (hx : K x) (hv : K v) : Abreast K U E b (addNameResType x v) (addNameResType x v) := upd fun s s' h => { h with
  types := fun z hz => by
    show Dict.get? (Dict.set _ _ _) z = Dict.get? (Dict.set _ _ _) z
    rw [Dict.get?_set, Dict.get?_set, h.types z hz, h.types x hx]
  typesKept := fun z ts hz => by
    show Dict.get? (Dict.set _ _ _) z = some ts → _
    rw [Dict.get?_set]
    split
    · intro e t hts
      cases e
      unfold addSet at hts
      have old : ∀ t ∈ (Dict.get? s.nameResType x).getD [], K t := fun t ht => by
        cases hd : Dict.get? s.nameResType x with
        | none => rw [hd] at ht; cases ht
        | some l => rw [hd] at ht; exact h.typesKept x l hx hd t ht
      split at hts
      · exact old t hts
      · rcases List.mem_append.mp hts with hts | hts
        · exact old t hts
        · obtain rfl := List.mem_singleton.mp hts
          exact hv
    · exact h.typesKept z ts hz }
theorem strftime (d : String) (l l') : Abreast K U E b (addStrftime d l) (addStrftime d l') := by
  refine find (fun _ _ h => ?_) ..; exact { h with strftime := sub_append h.strftime, strftimeIn := in_append h.strftimeIn }
theorem bytesDir (d : String) (l l') : Abreast K U E b (addBytesDir d l) (addBytesDir d l') := by
  refine find (fun _ _ h => ?_) ..; exact { h with bytesDirs := sub_append h.bytesDirs, bytesDirsIn := in_append h.bytesDirsIn }
theorem typecode (d : String) (l l' c c') : Abreast K U E b (addTypecode d l c) (addTypecode d l' c') :=
  once (g := S.typecodes) (f := fun s => { s with typecodes := s.typecodes ++ [d] }) (fun _ _ h => h.typecodes) d
    (fun _ _ h => { h with typecodes := sub_append h.typecodes, typecodesIn := in_append h.typecodesIn })
    (fun _ _ h hx => { h with typecodes := fun z hz => (List.mem_append.mp hz).elim (h.typecodes z) fun e => List.mem_singleton.mp e ▸ hx, typecodesIn := in_more h.typecodesIn })
theorem errorHandler (c : Const) (l l') : Abreast K U E b (addErrorHandler env c l) (addErrorHandler env c l') :=
  ite (print ..) (by refine find (fun _ _ h => ?_) ..; exact { h with errs := sub_append h.errs, errsIn := in_append h.errsIn })
theorem encoding (c : Const) (l l') : Abreast K U E b (addEncoding env c l) (addEncoding env c l') :=
  ite (print ..) (by refine find (fun _ _ h => ?_) ..; exact { h with encs := sub_append h.encs, encsIn := in_append h.encsIn })
theorem pushFn {f : String} (hf : K f) : Abreast K U E b (pushFn f) (Vermin.pushFn f) := upd fun s s' h => { h with
  calls := by show s'.fnStack ++ [f] = s.fnStack ++ [f]; rw [h.calls]
  callsKept := fun g hg => by
    rcases List.mem_append.mp hg with hg | hg
    · exact h.callsKept g hg
    · obtain rfl := List.mem_singleton.mp hg
      exact hf }
theorem popFn : Abreast K U E b popFn Vermin.popFn := upd fun s s' h => { h with
  calls := by show s'.fnStack.dropLast = s.fnStack.dropLast; rw [h.calls]
  callsKept := fun g hg => h.callsKept g (List.dropLast_subset _ hg) }
theorem gate {n : Node} {v v' : V} (h : Abreast K U E b v v') : Abreast K U E b (gate env n v) (Vermin.gate env n v') := ite skip h
end
end Abreast

/-! ### Names -/

/-- All of some names -/
def AllOf (K : String → Prop) (l : List (Option String)) : Prop := ∀ x, some x ∈ l → K x

section
variable {ma ma' : Dict String String} {n : Node}

theorem AllOf.append {l : List (Option String)} {x : String} (h : AllOf K l) (hx : K x) : AllOf K (l ++ [some x]) := fun z hz => by
  rcases List.mem_append.mp hz with hz | hz
  · exact h z hz
  · obtain h := List.mem_singleton.mp hz
    cases h
    exact hx
theorem AllOf.both {l l' : List (Option String)} (h : AllOf K l) (h' : AllOf K l') : AllOf K (l ++ l') := fun z hz => by
  rcases List.mem_append.mp hz with hz | hz
  · exact h z hz
  · exact h' z hz
theorem AllOf.ite {l : List (Option String)} {x : String} (c : Bool) (h : AllOf K l) (hx : K x) : AllOf K (if c then l ++ [some x] else l) := by
  split
  · exact h.append hx
  · exact h
theorem AllOf.drop {l : List (Option String)} (h : AllOf K l) (k : Nat) : AllOf K (l.drop k) := fun z hz => h z (List.mem_of_mem_drop hz)
theorem AllOf.cons {l : List (Option String)} {x : String} (h : AllOf K l) (hx : K x) : AllOf K (some x :: l) := fun z hz => by
  rcases List.mem_cons.mp hz with hz | hz
  · cases hz; exact hx
  · exact h z hz
theorem AllOf.nil : AllOf K [] := fun _ h => nomatch h
theorem AllOf.some {l : List String} (h : ∀ x ∈ l, K x) : AllOf K (l.map some) := fun z hz => by
  obtain ⟨w, hw, e⟩ := List.mem_map.mp hz
  cases e
  exact h _ hw
theorem AllOf.head {l : List (Option String)} (h : AllOf K l) {x : String} (hx : l.head?.getD none = Option.some x) : K x := by
  cases l with
  | nil => cases hx
  | cons z l => exact h x (by simp only [List.head?_cons, Option.getD_some] at hx; simp [hx])

variable (hK : Apart K) (hm : Agree K ma ma') (hn : Foreign K U E n)
include hK hm hn

omit hK in
theorem attrStep_same (full : List (Option String)) (b : Bool) : attrStep ma' full b n = attrStep ma full b n := by
  unfold attrStep
  cases hk : n.kind with
  | «attribute» attr =>
    dsimp only
    unfold attrNames
    cases hf : (n.field .value).bind Node.nameId with
    | none => rfl
    | some id =>
      dsimp only
      unfold resolveModuleName
      rw [hm.same id (hn.boundName hf)]
  | _ => rfl
theorem attrStep_kept {full r : List (Option String)} {b : Bool} (hl : AllOf K full) (h : attrStep ma full b n = .ok r) : AllOf K r := by
  unfold attrStep at h
  revert h
  cases hk : n.kind with
  | «attribute» attr =>
    intro h
    cases h
    refine hl.both ?_
    unfold attrNames
    refine AllOf.cons ?_ (hn.names attr (by rw [hk]; exact List.mem_singleton.mpr rfl))
    cases hf : (n.field .value).bind Node.nameId with
    | none => exact .nil
    | some id =>
      refine AllOf.cons .nil ?_
      have hid := hn.boundName hf
      unfold resolveModuleName
      cases hd : Dict.get? ma id with
      | none => exact hid
      | some v => exact hm.kept id v hid hd
  | call =>
    intro h
    cases h
    refine hl.both ?_
    unfold callNames
    cases hf : (n.field .func).bind Node.nameId with
    | none => exact .nil
    | some id => exact AllOf.cons .nil (hn.boundName hf)
  | dict _ => intro h; cases h; exact hl.ite _ (hK.value _ (by decide))
  | set => intro h; cases h; exact hl.ite _ (hK.value _ (by decide))
  | list _ => intro h; cases h; exact hl.ite _ (hK.value _ (by decide))
  | const c =>
    dsimp only
    split
    · intro h; cases h; exact hl
    · unfold attrConst
      cases c with
      | str _ => intro h; cases h; exact hl.ite _ (hK.value _ (by decide))
      | int _ => intro h; cases h; exact hl.ite _ (hK.value _ (by decide))
      | float _ => intro h; cases h; exact hl.ite _ (hK.value _ (by decide))
      | bytes _ => intro h; cases h; exact hl.ite _ (hK.value _ (by decide))
      | complex _ =>
        dsimp only
        split
        · intro h; cases h
        · intro h
          cases h
          split
          · exact hl.both fun z hz => by cases List.mem_singleton.mp hz
          · exact hl
      | _ => intro h; cases h; exact hl
  | _ => intro h; cases h; exact hl
omit hn
theorem attrLoop_same : ∀ (l : List Node), (∀ k ∈ l, Foreign K U E k) → ∀ (full : List (Option String)) (b : Bool), AllOf K full →
    attrLoop ma' full b l = attrLoop ma full b l ∧ ∀ r, attrLoop ma full b l = .ok r → AllOf K r
  | [], _, full, b, hf => ⟨rfl, fun r h => by cases h; exact hf⟩
  | k :: l, hl, full, b, hf => by
    unfold attrLoop
    dsimp only
    rw [attrStep_same hm (hl k (by simp))]
    cases hs : attrStep ma full (b || headBuiltin full) k with
    | error e => exact ⟨rfl, nofun⟩
    | ok r => exact attrLoop_same l (fun k hk => hl k (by simp [hk])) r _ (attrStep_kept hK hm (hl k (by simp)) hf hs)
include hn
theorem attributeName_same : attributeName ma' n = attributeName ma n ∧ ∀ r, attributeName ma n = .ok r → AllOf K r := by
  unfold attributeName
  obtain ⟨h1, h2⟩ := attrLoop_same hK hm (walk n) (fun k hk => hn.inner (mem_walk hk)) [] false .nil
  rw [h1]
  refine ⟨rfl, fun r h => ?_⟩
  cases ha : attrLoop ma [] false (walk n) with
  | error e => rw [ha] at h; cases h
  | ok full =>
    rw [ha] at h
    cases h
    exact fun x hx => h2 full ha x (List.mem_reverse.mp hx)
theorem dottedAttr_same : dottedAttr ma' n = dottedAttr ma n ∧ ∀ d, dottedAttr ma n = .ok d → K d := by
  unfold dottedAttr
  obtain ⟨h1, h2⟩ := attributeName_same hK hm hn
  rw [h1]
  refine ⟨rfl, fun r h => ?_⟩
  cases ha : attributeName ma n with
  | error e => rw [ha] at h; cases h
  | ok l =>
    rw [ha] at h
    cases h
    exact hK.dotted l (h2 l ha)
theorem assignedName_same : assignedName ma' n = assignedName ma n ∧ ∀ r, assignedName ma n = .ok r → ∀ v, (r = .value v ∨ r = .type v) → K v := by
  have hattr : ∀ f, Foreign K U E f → assignedAttr ma' f = assignedAttr ma f ∧ ∀ r, assignedAttr ma f = .ok r → ∀ v, (r = .value v ∨ r = .type v) → K v := fun f hf => by
    unfold assignedAttr
    obtain ⟨h1, h2⟩ := dottedAttr_same hK hm hf
    rw [h1]
    refine ⟨rfl, fun r h v hv => ?_⟩
    cases hd : dottedAttr ma f with
    | error e => rw [hd] at h; cases h
    | ok d =>
      rw [hd] at h
      cases h
      rcases hv with hv | hv <;> cases hv
      exact h2 _ hd
  have own : ∀ {w : String} {r : AssignedName}, K w → (r = .value w ∨ r = .type w) → ∀ r', (Except.ok r : Except Err AssignedName) = .ok r' →
      ∀ v, (r' = .value v ∨ r' = .type v) → K v := by
    intro w r hw hr r' h v hv
    cases h
    rcases hr with rfl | rfl <;> rcases hv with hv | hv <;> cases hv <;> exact hw
  have none : ∀ r', (Except.ok AssignedName.nothing : Except Err AssignedName) = .ok r' → ∀ v, (r' = .value v ∨ r' = .type v) → K v := by
    intro r' h v hv
    cases h
    rcases hv with hv | hv <;> cases hv
  unfold assignedName
  cases hk : n.kind with
  | call =>
    dsimp only
    unfold assignedCall
    cases hf : n.field .func with
    | none => exact ⟨rfl, none⟩
    | some f =>
      dsimp only
      cases hfk : f.kind with
      | name id c => exact ⟨rfl, own ((hn.field hf).names id (by rw [hfk]; exact List.mem_singleton.mpr rfl)) (.inl rfl)⟩
      | «attribute» _ => exact hattr f (hn.field hf)
      | _ => exact ⟨rfl, none⟩
  | «attribute» _ => exact hattr n hn
  | dict _ => exact ⟨rfl, own (hK.value "dict" (by decide)) (.inl rfl)⟩
  | set => exact ⟨rfl, own (hK.value "set" (by decide)) (.inl rfl)⟩
  | list _ => exact ⟨rfl, own (hK.value "list" (by decide)) (.inl rfl)⟩
  | name id c => exact ⟨rfl, own (hn.names id (by rw [hk]; exact List.mem_singleton.mpr rfl)) (.inr rfl)⟩
  | const c =>
    refine ⟨rfl, ?_⟩
    cases c with
    | str _ => exact own (hK.value "str" (by decide)) (.inl rfl)
    | int _ => exact own (hK.value "int" (by decide)) (.inl rfl)
    | float _ => exact own (hK.value "float" (by decide)) (.inl rfl)
    | bytes _ => exact own (hK.value "bytes" (by decide)) (.inl rfl)
    | bool _ => exact own (hK.value "int" (by decide)) (.inl rfl)
    | none => exact own (hK.value "None" (by decide)) (.inr rfl)
    | _ => exact none
  | _ => exact ⟨rfl, none⟩
theorem plainName_same : plainName ma' n = plainName ma n ∧ ∀ x, plainName ma n = .ok (some x) → K x := by
  unfold plainName
  cases hk : n.kind with
  | name id c => exact ⟨rfl, fun x h => by cases h; exact hn.names id (by rw [hk]; exact List.mem_singleton.mpr rfl)⟩
  | call => exact ⟨rfl, fun x h => hn.boundName (by injection h)⟩
  | «attribute» _ =>
    dsimp only
    obtain ⟨h1, h2⟩ := dottedAttr_same hK hm hn
    rw [h1]
    refine ⟨rfl, fun x h => ?_⟩
    cases hd : dottedAttr ma n with
    | error e => rw [hd] at h; cases h
    | ok d => rw [hd] at h; cases h; exact h2 _ hd
  | _ => exact ⟨rfl, nofun⟩
end

section
variable {vs vs' : Dict String String} (hv : Agree K vs vs')
include hv
theorem isDictStep_same {n : Node} (hn : Foreign K U E n) (ks : List (Node × DictInfo)) : isDictStep vs' n ks = isDictStep vs n ks := by
  unfold isDictStep
  cases hk : n.kind with
  | name id c =>
    dsimp only
    rw [hv.same id (hn.names id (by rw [hk]; exact List.mem_singleton.mpr rfl))]
  | _ => rfl
mutual
theorem dictInfo_same : (n : Node) → Foreign K U E n → dictInfo vs' n = dictInfo vs n
  | .mk i ks, hn => by
    have h := dictInfos_same ks fun k hk => hn.kid hk
    simp only [dictInfo, h, isDictStep_same hv hn]
theorem dictInfos_same : (ks : List Node) → (∀ k ∈ ks, Foreign K U E k) → dictInfos vs' ks = dictInfos vs ks
  | [], _ => rfl
  | k :: ks, h => by
    simp only [dictInfos, dictInfo_same k (h k (by simp)), dictInfos_same ks fun k hk => h k (by simp [hk])]
end
theorem isDict_same {n : Node} (hn : Foreign K U E n) : isDict vs' n = isDict vs n := by
  unfold isDict
  rw [dictInfo_same hv n hn]
theorem anyDict_same : ∀ (l : List Node), (∀ k ∈ l, Foreign K U E k) → anyDict vs' l = anyDict vs l
  | [], _ => rfl
  | k :: l, h => by
    unfold anyDict
    rw [isDict_same hv (h k (by simp)), anyDict_same l fun k hk => h k (by simp [hk])]
end

section
variable {ma ma' : Dict String String} (hK : Apart K) (hm : Agree K ma ma')
include hK hm
theorem fItem_same {n : Node} (hn : Foreign K U E n) (ks : List (Node × FInfo)) : fItem ma' n ks = fItem ma n ks := by
  unfold fItem
  cases hk : n.kind with
  | «attribute» _ =>
    dsimp only
    rw [(attributeName_same hK hm hn).1]
  | const c => cases c <;> rfl
  | _ => rfl
mutual
theorem fInfo_same : (n : Node) → Foreign K U E n → fInfo ma' n = fInfo ma n
  | .mk i ks, hn => by
    have h := fInfos_same ks fun k hk => hn.kid hk
    simp only [fInfo, h, fItem_same hK hm hn]
theorem fInfos_same : (ks : List Node) → (∀ k ∈ ks, Foreign K U E k) → fInfos ma' ks = fInfos ma ks
  | [], _ => rfl
  | k :: ks, h => by
    simp only [fInfos, fInfo_same k (h k (by simp)), fInfos_same ks fun k hk => h k (by simp [hk])]
end
theorem extractFstring_same {n : Node} (hn : Foreign K U E n) : extractFstring ma' n = extractFstring ma n := by
  unfold extractFstring
  rw [fInfo_same hK hm n hn]
end

/-! ### What the methods look up -/

section
variable {s s' : S} {n : Node} (hK : Apart K) (hs : Beside K U E b s s')
include hK hs

omit hK hs in
theorem Apart.head_word {f : String} (hK : Apart K) (hf : K f) : K ((splitDots f).headD "") := by
  cases h : splitDots f with
  | nil => exact hK.value "" (by decide)
  | cons w l => exact hK.words f hf w (by rw [h]; simp)
theorem kwTarget_same {f : String} (hf : K f) : kwTarget s' f = kwTarget s f ∧ K (kwTarget s f) := by
  have hh := hK.head_word hf
  have hd : AllOf K (((splitDots f).drop 1).map some) := AllOf.some fun w hw => hK.words f hf w (List.mem_of_mem_drop hw)
  unfold kwTarget
  rw [hs.origins.same f hf, hs.origins.same _ hh]
  cases h1 : Dict.get? s.importMemMod f with
  | some m => exact ⟨rfl, hK.dotted _ ((AllOf.cons .nil hf).cons (hs.origins.kept f m hf h1))⟩
  | none =>
    dsimp only
    cases h2 : Dict.get? s.importMemMod ((splitDots f).headD "") with
    | some m => exact ⟨rfl, hK.dotted _ ((AllOf.cons .nil hf).cons (hs.origins.kept _ m hh h2))⟩
    | none =>
      dsimp only
      unfold kwTargetVar
      rw [hs.results.same _ hh]
      cases h3 : Dict.get? s.nameRes ((splitDots f).headD "") with
      | none => exact ⟨rfl, hf⟩
      | some res =>
        have hr := hs.results.kept _ res hh h3
        dsimp only
        rw [hs.origins.same res hr]
        cases h4 : Dict.get? s.importMemMod res with
        | none => exact ⟨rfl, hK.dotted _ (hd.cons hr)⟩
        | some m => exact ⟨rfl, hK.dotted _ ((hd.cons hr).cons (hs.origins.kept res m hr h4))⟩
theorem decoName_same {x : String} (hx : K x) : decoName s' x = decoName s x ∧ K (decoName s x) := by
  unfold decoName
  rw [hs.origins.same x hx, hs.renames.same x hx]
  cases h1 : Dict.get? s.importMemMod x with
  | some m => exact ⟨rfl, hK.dotted _ ((AllOf.cons .nil hx).cons (hs.origins.kept x m hx h1))⟩
  | none =>
    dsimp only
    cases h2 : Dict.get? s.moduleAs x with
    | none => exact ⟨rfl, hx⟩
    | some m => exact ⟨rfl, hs.renames.kept x m hx h2⟩
omit hK in
theorem has_same {x : String} (hx : K x) : Dict.has s'.nameRes x = Dict.has s.nameRes x ∧ Dict.has s'.nameResType x = Dict.has s.nameResType x := by
  unfold Dict.has
  rw [hs.results.same x hx, hs.types x hx]
  exact ⟨rfl, rfl⟩

variable (hn : Foreign K U E n)
include hn
theorem nameOrAttr_same : nameOrAttr s' n = nameOrAttr s n ∧ ∀ x, nameOrAttr s n = .ok (some x) → K x := by
  unfold nameOrAttr
  cases hk : n.kind with
  | name id c => exact ⟨rfl, fun x h => by cases h; exact hn.names id (by rw [hk]; exact List.mem_singleton.mpr rfl)⟩
  | «attribute» _ =>
    dsimp only
    obtain ⟨h1, h2⟩ := dottedAttr_same hK hs.renames hn
    rw [h1]
    refine ⟨rfl, fun x h => ?_⟩
    cases hd : dottedAttr s.moduleAs n with
    | error e => rw [hd] at h; cases h
    | ok d => rw [hd] at h; cases h; exact h2 _ hd
  | _ => exact ⟨rfl, nofun⟩
theorem isNoneOrName_same : isNoneOrName s' n = isNoneOrName s n := by
  unfold isNoneOrName
  obtain ⟨h1, h2⟩ := nameOrAttr_same hK hs hn
  rw [h1]
  split
  · rfl
  · cases hx : nameOrAttr s n with
    | error e => rfl
    | ok x =>
      cases x with
      | none => rfl
      | some x =>
        have hk := h2 x hx
        dsimp only
        unfold maybeType
        rw [(has_same hs hk).1, (has_same hs hk).2, hs.contains hk]
theorem isUnionType_same : isUnionType s' n = isUnionType s n := by
  unfold isUnionType
  obtain ⟨h1, h2⟩ := nameOrAttr_same hK hs hn
  rw [h1]
  cases hx : nameOrAttr s n with
  | error e => rfl
  | ok x =>
    cases x with
    | none => rfl
    | some x =>
      have hk := h2 x hx
      dsimp only
      rw [(has_same hs hk).1, (has_same hs hk).2, hs.contains hk, hs.types x hk]
theorem resolvesTo_same (types : List String) : resolvesTo s' types n = resolvesTo s types n := by
  unfold resolvesTo resolveFullName
  obtain ⟨h1, h2⟩ := plainName_same hK hs.renames hn
  rw [h1]
  cases hx : plainName s.moduleAs n with
  | error e => rfl
  | ok x =>
    cases x with
    | none => rfl
    | some x =>
      have hk := h2 x hx
      dsimp only
      unfold resolveName
      rw [hs.results.same x hk]
      have hk' : K ((Dict.get? s.nameRes x).getD x) := by
        cases h : Dict.get? s.nameRes x with
        | none => exact hk
        | some v => exact hs.results.kept x v hk h
      dsimp only
      rw [hs.renames.same _ hk', hs.origins.same _ hk']
theorem isLiteralAnn_same : isLiteralAnn s' n = isLiteralAnn s n := by
  unfold isLiteralAnn
  rw [(dottedAttr_same hK hs.renames hn).1]
theorem isDictUnion_same {env : Env} {m : Node} (hm : Foreign K U E m) : isDictUnion env s' n m = isDictUnion env s n m := by
  unfold isDictUnion
  rw [isDict_same hs.results hn, isDict_same hs.results hm, resolvesTo_same hK hs hn, resolvesTo_same hK hs hm]
omit hn
theorem selfDoc_same : ∀ l : List Node, (∀ k ∈ l, Foreign K U E k) → selfDoc s' l = selfDoc s l
  | [], _ => rfl
  | [k], _ => rfl
  | p :: q :: l, h => by
    have hp : selfDocPair s' p q = selfDocPair s p q := by
      unfold selfDocPair
      cases p.strVal with
      | none => rfl
      | some t =>
        dsimp only
        split
        · cases hf : q.field .value with
          | none => rfl
          | some e =>
            dsimp only
            rw [extractFstring_same hK hs.renames ((h q (by simp)).field hf)]
        · rfl
    unfold selfDoc
    rw [hp, selfDoc_same (q :: l) fun k hk => h k (by simp [List.mem_cons.mp hk])]
end

/-! ### The methods -/

/-- Children whose visits do so. -/
def Followed (K : String → Prop) (U : Nat → Prop) (E : Prop) (b : S) (cs : List Child) : Prop :=
  ∀ c ∈ cs, Abreast K U E b c.visit c.visit ∧ Abreast K U E b c.gvisit c.gvisit

theorem Followed.filter {cs : List Child} (h : Followed K U E b cs) (p : Child → Bool) : Followed K U E b (cs.filter p) := fun c hc => h c (List.mem_filter.mp hc).1
theorem Followed.visits {cs : List Child} (h : Followed K U E b cs) : Abreast K U E b (each Child.visit cs) (each Child.visit cs) := .each _ fun c hc => (h c hc).1
theorem Followed.gvisits {cs : List Child} (h : Followed K U E b cs) : Abreast K U E b (each Child.gvisit cs) (each Child.gvisit cs) := .each _ fun c hc => (h c hc).2

variable {env : Env} {n : Node} {cs : List Child}

theorem genEnter_abreast (n : Node) : Abreast K U E b (genEnter env n) (genEnter env n) :=
  .seq (.seq (.opt .skip fun _ _ => .upd fun _ _ h => { h with }) (.upd fun s s' h => { h with depth := by show s'.depth + 1 = s.depth + 1; rw [h.depth] }))
    (.when (.rd fun _ _ _ => .nprint ..))
theorem gen_abreast (n : Node) (h : Followed K U E b cs) : Abreast K U E b (gen env n cs) (gen env n cs) :=
  .seq (.seq (genEnter_abreast n) h.visits) (.upd fun s s' h => { h with depth := by show s'.depth - 1 = s.depth - 1; rw [h.depth] })

theorem checkUnpacking_abreast (n : Node) : Abreast K U E b (checkUnpacking env n) (checkUnpacking env n) := .when (.found ..)
theorem typecodeArgs_abreast (n : Node) (k : Nat) : Abreast K U E b (typecodeArgs n k) (typecodeArgs n k) :=
  .each _ fun _ _ => .opt .skip fun _ _ => .typecode ..
theorem addUserDefNode_abreast {x : Node} (hn : Foreign K U E x) : Abreast K U E b (addUserDefNode x) (addUserDefNode x) := by
  unfold addUserDefNode
  split
  · next h => exact .userDef (hn.own (by rw [h]; exact List.mem_singleton.mpr rfl))
  · exact .skip
theorem addTargets_abreast {t : Node} (hn : Foreign K U E t) : Abreast K U E b (addTargets t) (addTargets t) :=
  .each _ fun x hx => addUserDefNode_abreast (hn.inner (mem_levels hx))
theorem addAlias_abreast {x v : String} (hx : E → '.' ∉ x.toList) (hv : K v) : Abreast K U E b (addAlias x v) (addAlias x v) :=
  .seq (.upd fun _ _ h => { h with renames := h.renames.set x hv }) (.userDef hx)
theorem encodingKws_abreast (n : Node) : Abreast K U E b (addCodecsEncodingKws env n) (addCodecsEncodingKws env n) :=
  .each _ fun _ _ => .when (.opt .skip fun _ _ => .encoding ..)
theorem checkCodecs_abreast (f : String) (n : Node) : Abreast K U E b (checkCodecsFunction env f n) (checkCodecsFunction env f n) :=
  .seq (.opt .skip fun _ _ => .seq (.opt .skip fun _ _ => .errorHandler ..) (.each _ fun _ _ => .when (.opt .skip fun _ _ => .errorHandler ..)))
    (.opt .skip fun _ _ => .each _ fun _ _ => .opt (encodingKws_abreast n) fun _ _ => .ite (.encoding ..) (.seq (.encoding ..) (encodingKws_abreast n)))
theorem checkRelaxed_abreast (n : Node) : Abreast K U E b (checkRelaxed env n) (checkRelaxed env n) := .each _ fun _ _ => .gate (.when (.found ..))

section
variable (hK : Apart K) (ht : TargetsOk env) (hn : Foreign K U E n)
include hK ht hn

omit hK in
theorem namesAsMembers_abreast : Abreast K U E b (namesAsMembers env n) (namesAsMembers env n) :=
  .each _ fun _ hm => .opt .skip fun _ hx => .member ht ((hn.inner (mem_walk hm)).nameId hx) ..
theorem aliasOf_kept : K (aliasOf n).1 ∧ ∀ x, (aliasOf n).2 = some x → E → '.' ∉ x.toList := by
  unfold aliasOf
  cases hk : n.kind with
  | alias x z => exact ⟨hn.names x (by rw [hk]; exact List.mem_cons_self ..), fun w hw => hn.own (by rw [hk]; cases hw; simp [Kind.ownNames])⟩
  | _ => exact ⟨hK.value "" (by decide), nofun⟩
theorem visitImport_abreast : Abreast K U E b (visitImport env n) (visitImport env n) :=
  .gate (.each _ fun _ hm =>
    have h := aliasOf_kept hK ht (hn.fields hm)
    .seq (.seq (.module ht h.1 ..) (.member ht h.1 ..)) (.opt .skip fun x hx => addAlias_abreast (h.2 x hx) h.1))
theorem visitImportFrom_abreast (he : E → ∀ x, x ∉ env.cfg.exclusions) {m : Option String} (hm : ∀ x, m = some x → K x) (l : Nat) : Abreast K U E b (visitImportFrom env n m l) (visitImportFrom env n m l) :=
  .opt .skip fun x hx => .when (.gate (.seq (.module ht (hm x hx) ..) (.each _ fun _ hm' =>
    have h := aliasOf_kept hK ht (hn.fields hm')
    have h2 := hK.dot (hm x hx) h.1
    .seq (.when (.seq (.seq (.importName ht (hm x hx) h2 (fun hE => he hE _) ..) (.member ht h2 ..)) (.member ht h.1 ..)))
      (.opt .skip fun x hx => addAlias_abreast (h.2 x hx) h2))))
omit hK ht hn in
theorem visitName_abreast {id : String} (hid : K id) : Abreast K U E b (visitName env id) (visitName env id) := by
  unfold visitName
  by_cases h : id = "long"
  · rw [if_pos h]
    refine .rd fun s s' hs => ?_
    rw [hs.contains (h ▸ hid)]
    exact .ite (.print ..) (.ite (.print ..) (.found ..))
  · rw [if_neg h]
    exact .when (.seq (.flag _) (.print ..))
omit hK hn in
theorem callName_abreast {id : String} (hid : K id) : Abreast K U E b (callName env n id) (callName env n id) := by
  refine .seq (.seq (.seq (.pushFn hid) (.member ht hid ..)) (.rd fun s s' hs => ?_)) (.rd fun s s' hs => ?_)
  · rw [hs.origins.same id hid, hs.renames.same id hid]
    cases Dict.get? s.importMemMod id with
    | some m => exact checkCodecs_abreast ..
    | none =>
      cases Dict.get? s.moduleAs id with
      | some m => exact checkCodecs_abreast ..
      | none => exact .skip
  · rw [hs.renames.same id hid]
    exact .ite (.flag _) (.ite (typecodeArgs_abreast n 6) (.ite (.when (.found ..)) (.when (.found ..))))
omit ht in
theorem callAttr_abreast (m : Node) (attr : String) : Abreast K U E b (callAttr env m n attr) (callAttr env m n attr) := by
  refine .seq (.ite (.when (.seq (.print ..) (.flag _))) (.when (.each _ fun _ _ => .opt .skip fun c _ => ?_))) (.rd fun s s' hs => ?_)
  · cases c with
    | str t => exact .each _ fun d _ => .strftime ..
    | _ => exact .raise _
  · obtain ⟨h1, h2⟩ := dottedAttr_same hK hs.renames hn
    rw [h1]
    exact .lift fun d hd => .seq (.seq (.pushFn (h2 d hd)) (checkCodecs_abreast ..)) (.when (typecodeArgs_abreast ..))
theorem visitCall_abreast (h : Followed K U E b cs) : Abreast K U E b (visitCall env n cs) (visitCall env n cs) := by
  refine .gate (.seq (.seq (.seq (.opt .skip fun f hf => ?_) (checkUnpacking_abreast n)) (gen_abreast n h)) .popFn)
  have hf := hn.field hf
  unfold callFunc
  cases hk : f.kind with
  | name id c => exact callName_abreast ht (hf.names id (by rw [hk]; exact List.mem_singleton.mpr rfl))
  | «attribute» x => exact callAttr_abreast hK hf n x
  | _ => exact .skip
omit hn in
theorem attrNameRes_abreast {full : List (Option String)} (hl : AllOf K full) (line : Nat) : Abreast K U E b (attrNameRes env full line) (attrNameRes env full line) := by
  refine .rd fun s s' hs => ?_
  cases hh : full.head?.getD none with
  | none => exact .skip
  | some x =>
    have hx := hl.head hh
    show Abreast K U E b (V.opt (Dict.get? s.nameRes x) _ _) (V.opt (Dict.get? s'.nameRes x) _ _)
    rw [hs.results.same x hx]
    refine .opt .skip fun res hr => ?_
    have hr := hs.results.kept x res hx hr
    rw [hs.origins.same res hr]
    refine .seq (.opt (.member ht (hK.dotted _ ((hl.drop 1).cons hr)) ..) fun m hm =>
      .member ht (hK.dotted _ (((hl.drop 1).cons hr).cons (hs.origins.kept res m hr hm))) ..) ?_
    unfold attrTwoTier
    cases hp : splitDots res with
    | nil => exact .skip
    | cons p ps =>
      have hw : ∀ w ∈ p :: ps, K w := fun w hw => hK.words res hr w (by rw [hp]; exact hw)
      dsimp only
      rw [hs.results.same p (hw p (by simp))]
      exact .opt .skip fun r h2 => .member ht (hK.dotted _ (AllOf.cons (AllOf.both (.some fun w h => hw w (by simp [h])) (hl.drop 1)) (hs.results.kept p r (hw p (by simp)) h2))) ..
omit hn in
theorem attrModules_abreast {full : List (Option String)} (hl : AllOf K full) (line : Nat) :
    Abreast K U E b (V.rd fun s => attrModules env full (dotted full) line (s.modules.length + 2) 0)
      (V.rd fun s => attrModules env full (dotted full) line (s.modules.length + 2) 0) := .touch fun s s' hs => by
  obtain ⟨t, a1, a2, ⟨r, a3, a4⟩, a5, a6, a7⟩ := attrModules_run ht full (dotted full) line (s.modules.length + 2) 0 s
  obtain ⟨t', b1, b2, ⟨r', b3, b4⟩, b5, b6, b7⟩ := attrModules_run ht full (dotted full) line (s'.modules.length + 2) 0 s'
  have hb := b7 (by unfold roundsLeft; split <;> omega)
  have hsub : ∀ m ∈ s'.modules, m ∈ t'.modules := fun m hm => by rw [b3]; exact List.mem_append.mpr (.inl hm)
  have hd := hK.dotted full hl
  have hmods : ∀ m ∈ t.modules, m ∈ t'.modules ∧ K m := by
    intro m hm
    rw [a3] at hm
    rcases List.mem_append.mp hm with hm | hm
    · exact ⟨hsub m (hs.modules m hm), hs.modulesKept m hm⟩
    · obtain ⟨rfl, c1, x, c2, c3⟩ := a4 m hm
      refine ⟨?_, hd⟩
      obtain ⟨j, hj⟩ := List.mem_iff_getElem?.mp (hsub x (hs.modules x c2))
      exact (hb j x (by omega) hj).1 c3 ((hs.allowed hd).mpr c1)
  have ha := a7 (by unfold roundsLeft; split <;> omega)
  have sub : ∀ m ∈ s.modules, m ∈ t.modules := fun m hm => by rw [a3]; exact List.mem_append.mpr (.inl hm)
  have gives : ∀ d, Gives env full s' d ↔ Gives env full s d := fun d => by
    have key : ∀ mod, (full.head?.getD none).bind (Dict.get? s'.importMemMod) = some mod ↔ (full.head?.getD none).bind (Dict.get? s.importMemMod) = some mod := fun mod => by
      cases hh : full.head?.getD none with
      | none => exact Iff.rfl
      | some x =>
        show Dict.get? s'.importMemMod x = some mod ↔ Dict.get? s.importMemMod x = some mod
        rw [hs.origins.same x (hl.head hh)]
    have kept : ∀ mod, (full.head?.getD none).bind (Dict.get? s.importMemMod) = some mod → K (dotted (some mod :: full)) := fun mod h => by
      cases hh : full.head?.getD none with
      | none => rw [hh] at h; cases h
      | some x => rw [hh] at h; exact hK.dotted _ (hl.cons (hs.origins.kept x mod (hl.head hh) h))
    constructor
    · rintro ⟨mod, g1, g2, g3, g4⟩
      have g1 := (key mod).mp g1
      exact ⟨mod, g1, g2, (hs.allowed (g2 ▸ kept mod g1)).mp g3, g4⟩
    · rintro ⟨mod, g1, g2, g3, g4⟩
      exact ⟨mod, (key mod).mpr g1, g2, (hs.allowed (g2 ▸ kept mod g1)).mpr g3, g4⟩
  have givesK : ∀ d, Gives env full s d → K d := fun d ⟨mod, g1, g2, _, _⟩ => by
    cases hh : full.head?.getD none with
    | none => rw [hh] at g1; cases g1
    | some x =>
      rw [hh] at g1
      rw [g2]
      exact hK.dotted _ (hl.cons (hs.origins.kept x mod (hl.head hh) g1))
  refine ⟨t, t', a1, b1, a2, b2, hmods, fun d h => ?_, fun hE m hm => ?_, fun hE d h => ?_, sub⟩
  · rcases a5 d h with h | ⟨g, m, h1, h2⟩
    · exact ⟨b6 d (hs.members d h), hs.membersKept d h⟩
    · obtain ⟨j, hj⟩ := List.mem_iff_getElem?.mp (hmods m h1).1
      exact ⟨(hb j m (by omega) hj).2 h2 d ((gives d).mpr g), givesK d g⟩
  · rw [b3] at hm
    rcases List.mem_append.mp hm with hm | hm
    · exact (hs.modulesIn hE m hm).imp (sub m) id
    · obtain ⟨rfl, c1, x, c2, c3⟩ := b4 m hm
      rcases hs.modulesIn hE x c2 with c2 | c2
      · obtain ⟨j, hj⟩ := List.mem_iff_getElem?.mp (sub x c2)
        exact .inl ((ha j x (by omega) hj).1 c3 ((hs.allowed hd).mp c1))
      · exact absurd (hl.head (by rw [c3]; rfl)) (hs.strange hE x c2)
  · rcases b5 d h with h | ⟨g, _⟩
    · exact (hs.membersIn hE d h).imp (a6 d) id
    · have g := (gives d).mp g
      obtain ⟨mod, g1, _⟩ := id g
      cases hh : full.head?.getD none with
      | none => rw [hh] at g1; cases g1
      | some x =>
        rw [hh] at g1
        obtain ⟨j, hj⟩ := List.mem_iff_getElem?.mp (sub _ (hs.sources hE x mod g1))
        refine .inl ((ha j _ (by omega) hj).2 (fun e => ?_) d g)
        rw [e] at hh
        have : mod ++ "." ++ x = x := by injection hh
        have := congrArg (fun s : String => s.toList.length) this
        simp at this
        omega
theorem visitAttribute_abreast (h : Followed K U E b cs) : Abreast K U E b (visitAttribute env n cs) (visitAttribute env n cs) := by
  refine .seq ⟨fun s s' hs => ?_⟩ (gen_abreast n h)
  obtain ⟨h1, h2⟩ := attributeName_same hK hs.renames hn
  show BesideOut K U E b (V.lift (attributeName s.moduleAs n) _ s) (V.lift (attributeName s'.moduleAs n) _ s')
  rw [h1]
  cases ha : attributeName s.moduleAs n with
  | error e => trivial
  | ok full =>
    have hl := h2 full ha
    have := (Abreast.when (c := !full.isEmpty) (.seq (.seq (attrModules_abreast (U := U) (E := E) (b := b) hK ht hl n.line)
      (.member ht (hK.dotted _ hl) (some n.line) (some n.line) none none)) (attrNameRes_abreast hK ht hl n.line))).run s s' hs
    revert this
    show BesideOut K U E b (V.when (!full.isEmpty) _ s) (V.when (!full.isEmpty) _ s') → BesideOut K U E b (V.when (!full.isEmpty) _ s) (V.when (!full.isEmpty) _ s')
    cases full.isEmpty <;> exact id
omit hn in
theorem visitKeyword_abreast (n : Node) (arg : Option String) (h : Followed K U E b cs) : Abreast K U E b (visitKeyword env n arg cs) (visitKeyword env n arg cs) := by
  refine .rd fun s s' hs => ?_
  rw [hs.calls]
  refine .seq (.each _ fun f hf => ?_) ?_
  · obtain ⟨h1, h2⟩ := kwTarget_same hK hs (hs.callsKept f hf)
    rw [h1]
    exact .kwargs h2 ..
  · have : (s.fnStack.any fun f => kwargsAdded env s' (kwTarget s' f) arg) = s.fnStack.any fun f => kwargsAdded env s (kwTarget s f) arg := by
      rw [Bool.eq_iff_iff, List.any_eq_true, List.any_eq_true]
      have : ∀ f ∈ s.fnStack, kwargsAdded env s' (kwTarget s' f) arg = kwargsAdded env s (kwTarget s f) arg := fun f hf => by
        obtain ⟨h1, h2⟩ := kwTarget_same hK hs (hs.callsKept f hf)
        unfold kwargsAdded
        rw [h1, hs.contains h2]
      exact ⟨fun ⟨f, hf, h⟩ => ⟨f, hf, this f hf ▸ h⟩, fun ⟨f, hf, h⟩ => ⟨f, hf, (this f hf).symm ▸ h⟩⟩
    rw [this]
    exact .when (gen_abreast n h)
omit ht in
theorem visitBinOp_abreast (h : Followed K U E b cs) : Abreast K U E b (visitBinOp env n cs) (visitBinOp env n cs) := by
  refine .seq (.seq (.when (.opt .skip fun l _ => .seq (.when (.found ..)) (.when (.found ..)))) (.when (.opt .skip fun l hl => .opt .skip fun r hr => ?_))) (gen_abreast n h)
  refine .seq (.rd fun s s' hs => ?_) (.when (.rd fun s s' hs => ?_))
  · rw [isDictUnion_same hK hs (hn.field hl) (hn.field hr)]
    exact .lift fun _ _ => .when (.found ..)
  · rw [isNoneOrName_same hK hs (hn.field hl), isNoneOrName_same hK hs (hn.field hr)]
    exact .lift fun _ _ => .when (.found ..)
omit hK ht in
theorem visitConstant_abreast {c : Const} (hk : n.kind = .const c) : Abreast K U E b (visitConstant env n c) (visitConstant env n c) := by
  cases c with
  | bytes t => exact .seq (.found ..) (.each _ fun d _ => .bytesDir ..)
  | bool b => exact .seq (.flag _) (.print ..)
  | ellipsis =>
    unfold visitConstant visitEllipsis
    refine .rd fun s s' hs => ?_
    have : s'.ellipsisInSlices.contains n.info.uid = s.ellipsisInSlices.contains n.info.uid := by
      rw [Bool.eq_iff_iff, List.contains_iff_mem, List.contains_iff_mem]
      exact hs.slices _ ((hn n (.self n)).2.1 hk)
    rw [this]
    exact .when (.found ..)
  | _ => exact .skip
omit ht in
theorem visitJoinedStr_abreast (h : Followed K U E b cs) : Abreast K U E b (visitJoinedStr env n cs) (visitJoinedStr env n cs) := by
  refine .seq (.seq (.found ..) (.when (.rd fun s s' hs => ?_))) (gen_abreast n h)
  rw [selfDoc_same hK hs _ fun k hk => hn.fields hk]
  exact .lift fun _ _ => .when (.found ..)
omit ht in
theorem addNameResAssign_abreast : Abreast K U E b (addNameResAssign n) (addNameResAssign n) := by
  refine .opt .skip fun v hv => .rd fun s s' hs => ?_
  obtain ⟨h1, h2⟩ := assignedName_same hK hs.renames (hn.field hv)
  rw [h1]
  refine .lift fun r hr => .each _ fun t hk => .opt .skip fun id hid => ?_
  cases r with
  | value w => exact .nameRes id (h2 _ hr w (.inl rfl))
  | type w => exact .nameResType ((hn.kid (List.mem_filter.mp hk).1).nameId hid) (h2 _ hr w (.inr rfl))
  | nothing => exact .skip
omit ht in
theorem visitAssign_abreast (h : Followed K U E b cs) : Abreast K U E b (visitAssign env n cs) (visitAssign env n cs) :=
  .gate (.seq (.seq (.each _ fun t ht => addTargets_abreast (hn.fields ht)) (addNameResAssign_abreast hK hn)) (gen_abreast n h))
omit ht in
theorem visitAugAssign_abreast (h : Followed K U E b cs) : Abreast K U E b (visitAugAssign env n cs) (visitAugAssign env n cs) := by
  refine .gate (.seq (.seq (.seq (.opt .skip fun t ht => addUserDefNode_abreast (hn.field ht)) (addNameResAssign_abreast hK hn))
    (.when (.opt .skip fun t hf => .opt .skip fun v hv => .rd fun s s' hs => ?_))) (gen_abreast n h))
  have hf := hn.field hf
  have hv := hn.field hv
  rw [isDict_same hs.results hf, isDict_same hs.results hv, resolvesTo_same hK hs hf, isUnionType_same hK hs hf, isUnionType_same hK hs hv]
  exact .lift fun _ _ => .ite (.lift fun _ _ => .lift fun _ _ => .when (.found ..)) (.when (.lift fun _ _ => .when (.found ..)))
omit ht in
theorem visitAnnAssign_abreast (h : Followed K U E b cs) : Abreast K U E b (visitAnnAssign env n cs) (visitAnnAssign env n cs) :=
  .gate (.seq (.seq (.seq (.seq (.seq (.opt .skip fun t ht => addUserDefNode_abreast (hn.field ht)) (addNameResAssign_abreast hK hn)) (.alt (gen_abreast n h) (.flag _)))
    (.flag _)) (.found ..)) (.opt .skip fun _ _ => .ite (.found ..) (.when (.found ..))))
omit ht in
theorem funcDecos_abreast : Abreast K U E b (funcDecos env n) (funcDecos env n) := by
  refine .opt .skip fun l _ => .seq (.seq (.found ..) (checkRelaxed_abreast n)) (.each _ fun d hd => .gate (.rd fun s s' hs => ?_))
  obtain ⟨h1, h2⟩ := nameOrAttr_same hK hs (hn.fields hd)
  rw [h1]
  refine .lift fun x hx => .opt .skip fun z hz => ?_
  obtain ⟨h3, h4⟩ := decoName_same hK hs (h2 z (by rw [hx, hz]))
  rw [h3]
  exact .deco h4 ..
omit hK ht hn in
theorem dirFuncs_abreast (n : Node) (name : String) : Abreast K U E b (dirFuncs env n name) (dirFuncs env n name) := by
  refine .opt .skip fun x _ => .rd fun s s' hs => ?_
  rw [hs.depth]
  exact .when (.ite (.found ..) (.when (.found ..)))
omit ht hn in
theorem argAnns_abreast (n : Node) : ∀ l : List Node, (∀ k ∈ l, Foreign K U E k) → Abreast K U E b (argAnns env n l) (argAnns env n l)
  | [], _ => .skip
  | k :: l, h => by
    have ih := argAnns_abreast n l fun k hk => h k (by simp [hk])
    refine .opt ih fun x hx => .seq (.found ..) (.rd fun s s' hs => ?_)
    rw [isLiteralAnn_same hK hs ((h k (by simp)).field hx)]
    exact .lift fun _ _ => .alt (.alt (.found ..) (.flag _)) ih
omit ht in
theorem handleFunctionDef_abreast {name : String} (hx : E → '.' ∉ name.toList) (h : Followed K U E b cs) : Abreast K U E b (handleFunctionDef env n name cs) (handleFunctionDef env n name cs) := by
  refine .seq (.seq (.seq (.seq (.userDef hx) (dirFuncs_abreast n name)) (funcDecos_abreast hK hn)) (.scope (gen_abreast _ (h.filter _))))
    (.alt (.found ..) (argAnns_abreast hK n _ fun k hk => ?_))
  unfold paramsOf at hk
  split at hk
  · next x hx => exact (hn.field hx).fields hk
  · cases hk
omit ht in
theorem visitFunctionDef_abreast {name : String} (hx : E → '.' ∉ name.toList) (h : Followed K U E b cs) : Abreast K U E b (visitFunctionDef env n name cs) (visitFunctionDef env n name cs) :=
  .gate (.rd fun _ _ hs => .seq (handleFunctionDef_abreast hK hn hx h) (.upd fun _ _ ht => { ht with yields := hs.yields }))
omit ht in
theorem visitAsyncFunctionDef_abreast {name : String} (hx : E → '.' ∉ name.toList) (h : Followed K U E b cs) :
    Abreast K U E b (visitAsyncFunctionDef env n name cs) (visitAsyncFunctionDef env n name cs) := by
  refine .gate (.rd fun s s' hs => .seq (.seq (.seq (handleFunctionDef_abreast hK hn hx h) (.found ..)) (.rd fun t t' ht => ?_))
    (.upd fun _ _ ht => { ht with yields := hs.yields, awaits := hs.awaits }))
  rw [hs.yields, hs.awaits, ht.yields, ht.awaits]
  have h1 : decide (s.seenYield + b.seenYield < t.seenYield + b.seenYield) = decide (s.seenYield < t.seenYield) := decide_eq_decide.mpr (by omega)
  have h2 : decide (s.seenAwait + b.seenAwait < t.seenAwait + b.seenAwait) = decide (s.seenAwait < t.seenAwait) := decide_eq_decide.mpr (by omega)
  rw [h1, h2]
  exact .when (.found ..)
omit hK ht hn in
theorem visitAwait_abreast (n : Node) (h : Followed K U E b cs) : Abreast K U E b (visitAwait env n cs) (visitAwait env n cs) :=
  .gate (.seq (.seq (.found ..) (.upd fun s s' h => { h with awaits := by show s'.seenAwait + 1 = s.seenAwait + 1 + b.seenAwait; rw [h.awaits]; omega })) (gen_abreast n h))
omit hK ht in
theorem visitClassDef_abreast {name : String} (hk : n.kind = .classDef name) (h : Followed K U E b cs) : Abreast K U E b (visitClassDef env n name cs) (visitClassDef env n name cs) :=
  have hx : K name := hn.names name (by rw [hk]; exact List.mem_singleton.mpr rfl)
  .gate (.seq (.seq (.seq (.seq (.seq (.userDef (hn.own (by rw [hk]; exact List.mem_singleton.mpr rfl))) (.nameResType hx hx)) (.opt .skip fun _ _ => .seq (.found ..) (checkRelaxed_abreast n)))
    (.each _ fun _ _ => .when (.found ..))) (gen_abreast n h)) (h.filter _).gvisits)
omit hK ht in
theorem visitNamedExpr_abreast (h : Followed K U E b cs) : Abreast K U E b (visitNamedExpr env n cs) (visitNamedExpr env n cs) :=
  .gate (.seq (.seq (.opt .skip fun t ht => addUserDefNode_abreast (hn.field ht)) (.found ..)) (gen_abreast n h))
omit hK ht in
theorem visitArguments_abreast (h : Followed K U E b cs) : Abreast K U E b (visitArguments env n cs) (visitArguments env n cs) := by
  refine .seq (.seq (.seq (.when (.found ..)) (.when (.found ..))) (.each _ fun k hk => .opt .skip fun x hx => .userDef ?_)) (gen_abreast n h)
  have hk : k ∈ n.kids := by
    simp only [List.mem_append] at hk
    rcases hk with (((hk | hk) | hk) | hk) | hk <;> exact fields_mem hk
  refine (hn.kid hk).own ?_
  unfold argName at hx
  split at hx
  · next e => cases hx; rw [e]; exact List.mem_singleton.mpr rfl
  · cases hx
omit hK in
theorem visitRaise_abreast (h : Followed K U E b cs) : Abreast K U E b (visitRaise env n cs) (visitRaise env n cs) :=
  .gate (.seq (.seq (.seq (.opt .skip fun _ _ => .seq (.found ..) (.when (.found ..))) (.opt .skip fun _ hc => namesAsMembers_abreast ht (hn.field hc)))
    (.opt .skip fun _ hc => namesAsMembers_abreast ht (hn.field hc))) (gen_abreast n h))
omit hK in
theorem visitExceptHandler_abreast {name : Option String} (hx : ∀ x, name = some x → E → '.' ∉ x.toList) (h : Followed K U E b cs) : Abreast K U E b (visitExceptHandler env n name cs) (visitExceptHandler env n name cs) :=
  .gate (.seq (.when (.found ..)) (.scope (.seq (.seq (.opt .skip fun _ hc => .userDef (hx _ hc)) (.opt .skip fun _ hc => namesAsMembers_abreast ht (hn.field hc))) (gen_abreast n h))))
omit hK ht in
theorem visitComp_abreast (h : Followed K U E b cs) : Abreast K U E b (visitComp env n cs) (visitComp env n cs) :=
  .scope (.seq (.each _ fun _ hc => .opt .skip fun t ht => addTargets_abreast ((hn.fields hc).field ht)) (gen_abreast n h))
omit hK ht hn in
theorem visitComprehension_abreast (n : Node) (f : Bool) (h : Followed K U E b cs) : Abreast K U E b (visitComprehension env n f cs) (visitComprehension env n f cs) := by
  refine .seq (.when (.found ..)) (.rd fun s s' hs => .seq (.seq (gen_abreast n h) (.rd fun t t' ht => ?_)) (.upd fun _ _ ht => { ht with awaits := hs.awaits }))
  rw [hs.awaits, ht.awaits]
  have h2 : decide (s.seenAwait + b.seenAwait < t.seenAwait + b.seenAwait) = decide (s.seenAwait < t.seenAwait) := decide_eq_decide.mpr (by omega)
  rw [h2]
  exact .when (.found ..)
omit hK ht hn in
theorem visitContinue_abreast (n : Node) : Abreast K U E b (visitContinue env n) (visitContinue env n) := by
  refine .rd fun s s' hs => ?_
  have : inFinally s' = inFinally s := by
    unfold inFinally
    rw [hs.finals, hs.loops, hs.whiles]
  rw [this]
  exact .when (.found ..)
omit hK ht in
theorem handleWith_abreast (h : Followed K U E b cs) : Abreast K U E b (handleWith env n cs) (handleWith env n cs) :=
  .scope (.seq (.seq (.each _ fun _ hc => .opt .skip fun t ht => addTargets_abreast ((hn.fields hc).field ht)) (.when (.seq (.found ..) (.when (.found ..))))) (gen_abreast n h))
omit hK ht hn in
theorem visitDisplay_abreast (n : Node) (h : Followed K U E b cs) : Abreast K U E b (visitDisplay env n cs) (visitDisplay env n cs) := .seq (checkUnpacking_abreast n) (gen_abreast n h)
omit hK ht hn in
theorem genericType_abreast {x : String} (hx : K x) : Abreast K U E b (genericType env x) (genericType env x) := by
  refine .alt (.rd fun s s' hs => ?_) (.flag _)
  rw [hs.contains hx]
  exact .ite (.print ..) (.found ..)
omit hK ht hn in
theorem markEllipsis_abreast (n : Node) : Abreast K U E b (markEllipsis n) (markEllipsis n) :=
  .when (.upd fun s s' h => { h with slices := fun u hu => (List.mem_append.trans ((or_congr_left (h.slices u hu)).trans List.mem_append.symm)) })
omit hK ht hn in
theorem markSubscript_abreast (sl : Node) : Abreast K U E b (markSubscript sl) (markSubscript sl) := by
  refine .seq (markEllipsis_abreast sl) ?_
  split
  · exact .each _ fun x _ => markEllipsis_abreast x
  · exact .skip
omit hK ht hn in
theorem markSlice_abreast (sl : Node) : Abreast K U E b (markSlice sl) (markSlice sl) := by
  unfold markSlice
  split
  · exact .each _ fun x _ => markEllipsis_abreast x
  · exact .opt .skip fun x _ => markSubscript_abreast x
  · exact markSubscript_abreast sl
omit ht hn in
theorem subscriptName_abreast (ho : ∀ l x, x ∈ env.order l → x ∈ l) {x : String} (hx : K x) : Abreast K U E b (subscriptName env x) (subscriptName env x) := by
  refine .rd fun s s' hs => ?_
  rw [hs.origins.same x hx, hs.types x hx]
  exact .ite (genericType_abreast hx) (.opt (.opt .skip fun ts hts => .each _ fun t hk => .when (genericType_abreast (hs.typesKept x ts hx hts t (ho _ _ hk))))
    fun m hm => .when (genericType_abreast (hK.dotted _ ((AllOf.cons .nil hx).cons (hs.origins.kept x m hx hm)))))
omit ht in
theorem visitSubscript_abreast (ho : ∀ l x, x ∈ env.order l → x ∈ l) (h : Followed K U E b cs) : Abreast K U E b (visitSubscript env n cs) (visitSubscript env n cs) := by
  refine .gate (.seq (.seq (.opt .skip fun v hv => .rd fun s s' hs => ?_) (.opt .skip fun sl _ => markSlice_abreast sl)) (gen_abreast n h))
  obtain ⟨h1, h2⟩ := nameOrAttr_same hK hs (hn.field hv)
  rw [h1]
  exact .lift fun x hx => .opt .skip fun z hz => subscriptName_abreast hK ho (h2 z (by rw [hx, hz]))
omit ht in
theorem handleFor_abreast (h : Followed K U E b cs) : Abreast K U E b (handleFor env n cs) (handleFor env n cs) := by
  refine .gate (.seq (.upd fun s s' h => { h with loops := by show s'.seenFor + 1 = s.seenFor + 1; rw [h.loops] })
    (.scope (.seq (.seq (.seq (.opt .skip fun t ht => addTargets_abreast (hn.field ht)) (.opt .skip fun id _ => .opt .skip fun it hi => .rd fun s s' hs => ?_)) (gen_abreast n h))
      (.upd fun s s' h => { h with loops := by show s'.seenFor - 1 = s.seenFor - 1; rw [h.loops] }))))
  rw [anyDict_same hs.results (eltsOf it) fun k hk => (hn.field hi).kid (List.mem_filter.mp hk).1]
  exact .lift fun _ _ => .when (.nameRes id (hK.value "dict" (by decide)))
omit hK ht hn in
theorem visitWhile_abreast (n : Node) (h : Followed K U E b cs) : Abreast K U E b (visitWhile env n cs) (visitWhile env n cs) :=
  .gate (.seq (.seq (.upd fun s s' h => { h with whiles := by show s'.seenWhile + 1 = s.seenWhile + 1; rw [h.whiles] }) (gen_abreast n h))
    (.upd fun s s' h => { h with whiles := by show s'.seenWhile - 1 = s.seenWhile - 1; rw [h.whiles] }))
omit hK ht hn in
theorem visitTry_abreast (n : Node) (h : Followed K U E b cs) : Abreast K U E b (visitTry env n cs) (visitTry env n cs) :=
  .gate (.seq (.seq (.seq (.upd fun s s' h => { h with finals := by show (s'.seenFor, s'.seenWhile) :: s'.tryFinally = (s.seenFor, s.seenWhile) :: s.tryFinally; rw [h.finals, h.loops, h.whiles] }) (h.filter _).visits)
    (.upd fun s s' h => { h with finals := by show s'.tryFinally.drop 1 = s.tryFinally.drop 1; rw [h.finals] })) (gen_abreast n h))
omit hK ht hn in
theorem visitOp_abreast (n : Node) (op : Op) (h : Followed K U E b cs) : Abreast K U E b (visitOp env n op cs) (visitOp env n op cs) := by
  cases op <;> first | exact .skip | exact gen_abreast n h | exact .seq (.found ..) (gen_abreast n h)

theorem visitAlg_abreast (he : E → ∀ x, x ∉ env.cfg.exclusions) (ho : ∀ l x, x ∈ env.order l → x ∈ l) (h : Followed K U E b cs) : Abreast K U E b (visitAlg env n cs) (visitAlg env n cs) := by
  unfold visitAlg
  cases hk : n.kind with
  | «import» => exact visitImport_abreast hK ht hn
  | importFrom m l => exact visitImportFrom_abreast hK ht hn he (fun x hx => hn.names x (by rw [hk, hx]; exact List.mem_singleton.mpr rfl)) l
  | name id c => exact visitName_abreast (hn.names id (by rw [hk]; exact List.mem_singleton.mpr rfl))
  | starred c => exact .seq (.when (.found ..)) (gen_abreast n h)
  | call => exact visitCall_abreast hK ht hn h
  | «attribute» x => exact visitAttribute_abreast hK ht hn h
  | keyword x => exact visitKeyword_abreast hK ht n x h
  | binOp => exact visitBinOp_abreast hK hn h
  | const c => exact visitConstant_abreast hn hk
  | joinedStr => exact visitJoinedStr_abreast hK hn h
  | assign => exact visitAssign_abreast hK hn h
  | augAssign => exact visitAugAssign_abreast hK hn h
  | annAssign => exact visitAnnAssign_abreast hK hn h
  | functionDef x => exact visitFunctionDef_abreast hK hn (hn.own (by rw [hk]; exact List.mem_singleton.mpr rfl)) h
  | asyncFunctionDef x => exact visitAsyncFunctionDef_abreast hK hn (hn.own (by rw [hk]; exact List.mem_singleton.mpr rfl)) h
  | lambda => exact .scope (gen_abreast n h)
  | await => exact visitAwait_abreast n h
  | classDef x => exact visitClassDef_abreast hn hk h
  | namedExpr => exact visitNamedExpr_abreast hn h
  | arguments => exact visitArguments_abreast hn h
  | nonlocal => exact .gate (.seq (.found ..) (gen_abreast n h))
  | yieldFrom => exact .gate (.seq (.found ..) (gen_abreast n h))
  | yield => exact .gate (.seq (.upd fun s s' h => { h with yields := by show s'.seenYield + 1 = s.seenYield + 1 + b.seenYield; rw [h.yields]; omega }) (gen_abreast n h))
  | raise => exact visitRaise_abreast ht hn h
  | exceptHandler x => exact visitExceptHandler_abreast ht hn (fun z hz => hn.own (by rw [hk, hz]; exact List.mem_singleton.mpr rfl)) h
  | listComp => exact visitComp_abreast hn h
  | generatorExp => exact visitComp_abreast hn h
  | setComp => exact .seq (.found ..) (visitComp_abreast hn h)
  | dictComp => exact .seq (.found ..) (visitComp_abreast hn h)
  | comprehension b => exact visitComprehension_abreast n b h
  | «continue» => exact visitContinue_abreast n
  | «with» => exact .gate (.seq (.found ..) (handleWith_abreast hn h))
  | asyncWith => exact .gate (.seq (.found ..) (handleWith_abreast hn h))
  | dict _ => exact visitDisplay_abreast n h
  | tuple _ => exact visitDisplay_abreast n h
  | list _ => exact visitDisplay_abreast n h
  | set => exact .seq (.found ..) (visitDisplay_abreast n h)
  | subscript => exact visitSubscript_abreast hK hn ho h
  | «match» => exact .gate (.seq (.found ..) (gen_abreast n h))
  | «if» => exact .gate (gen_abreast n h)
  | ifExp => exact .gate (gen_abreast n h)
  | boolOp => exact .gate (gen_abreast n h)
  | «for» => exact handleFor_abreast hK hn h
  | asyncFor => exact .gate (.seq (.found ..) (handleFor_abreast hK hn h))
  | «while» => exact visitWhile_abreast n h
  | «try» => exact visitTry_abreast n h
  | typeAlias => exact .gate (.seq (.found ..) (gen_abreast n h))
  | op p => exact visitOp_abreast n p h
  | alias _ _ => exact .skip
  | pass => exact .skip
  | «break» => exact .skip
  | _ => exact gen_abreast n h
end

mutual
theorem visitNode_abreast (hK : Apart K) (ht : TargetsOk env) (he : E → ∀ x, x ∉ env.cfg.exclusions) (ho : ∀ l x, x ∈ env.order l → x ∈ l) :
    (n : Node) → Foreign K U E n → Abreast K U E b (visitNode env n).1 (visitNode env n).1 ∧ Abreast K U E b (visitNode env n).2 (visitNode env n).2
  | .mk i ks, hn => by
    have hk := visitKids_abreast hK ht he ho ks fun k hk => hn.kid hk
    simp only [visitNode]
    exact ⟨visitAlg_abreast hK ht hn he ho hk, gen_abreast _ hk⟩
theorem visitKids_abreast (hK : Apart K) (ht : TargetsOk env) (he : E → ∀ x, x ∉ env.cfg.exclusions) (ho : ∀ l x, x ∈ env.order l → x ∈ l) :
    (ks : List Node) → (∀ k ∈ ks, Foreign K U E k) → Followed K U E b (visitKids env ks)
  | [], _ => nofun
  | k :: ks, h => by
    have h1 := visitNode_abreast hK ht he ho k (h k (by simp))
    have h2 := visitKids_abreast hK ht he ho ks fun k hk => h k (by simp [hk])
    intro c hc
    rcases List.mem_cons.mp hc with rfl | hc
    · exact h1
    · exact h2 c hc
end

end Vermin
