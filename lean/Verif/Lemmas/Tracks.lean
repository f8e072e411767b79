import Verif.Lemmas.Renamed
import Verif.Lemmas.Shuffled
/-
Two visits of the same program with different names.
-/
namespace Vermin
open Py V Spec Node

/-- The state with other names, positions and output. -/
def S.renamed (ρ : String → String) (s : S) (lc : Dict Ent (Nat × Option Nat)) (t : List String) : S :=
  { s with
    lineCol := lc, out := t, modules := s.modules.map ρ, members := s.members.map ρ, functionName := s.functionName.map ρ, fnStack := s.fnStack.map ρ,
    kwargs := s.kwargs.map fun k => (ρ k.1, k.2.map ρ), userFuncDecos := s.userFuncDecos.map ρ, importMemMod := relabel ρ ρ s.importMemMod,
    nameRes := relabel ρ ρ s.nameRes, nameResType := relabel ρ (List.map ρ) s.nameResType, userDefs := s.userDefs.map ρ,
    moduleAs := relabel ρ ρ s.moduleAs }

/-- The same error, or states that differ in names, positions and output only. -/
def Twins (ρ : String → String) : Except Err S → Except Err S → Prop
  | .ok t, .ok t' => ∃ lc o, t' = t.renamed ρ lc o
  | .error e, .error e' => e = e'
  | _, _ => False

/-- Actions that do the same up to names, positions and output. -/
structure Tracks (ρ : String → String) (v v' : V) : Prop where
  run : ∀ s lc o, Twins ρ (v s) (v' (s.renamed ρ lc o))

namespace Tracks
variable {ρ : String → String}
theorem skip : Tracks ρ skip skip := ⟨fun _ lc o => ⟨lc, o, rfl⟩⟩
theorem seq {a a' b b' : V} (ha : Tracks ρ a a') (hb : Tracks ρ b b') : Tracks ρ (a ;; b) (a' ;; b') := ⟨fun s lc o => by
  have h := ha.run s lc o
  show Twins ρ (V.seq a b s) (V.seq a' b' _)
  unfold V.seq
  revert h
  cases a s with
  | ok t =>
    cases a' (s.renamed ρ lc o) with
    | ok t' => rintro ⟨lc, o, rfl⟩; exact hb.run t lc o
    | error e => exact False.elim
  | error e =>
    cases a' (s.renamed ρ lc o) with
    | ok t' => exact False.elim
    | error e' => exact id⟩
theorem rd {f f' : S → V} (h : ∀ s lc o, Tracks ρ (f s) (f' (s.renamed ρ lc o))) : Tracks ρ (V.rd f) (V.rd f') :=
  ⟨fun s lc o => (h s lc o).run s lc o⟩
theorem raise (x : Err) : Tracks ρ (fun _ => .error x) (fun _ => .error x) := ⟨fun _ _ _ => rfl⟩
theorem upd {f f' : S → S} (h : ∀ s lc o, ∃ lc' o', f' (s.renamed ρ lc o) = (f s).renamed ρ lc' o') : Tracks ρ (V.upd f) (V.upd f') := ⟨h⟩
/-- An action on other fields. -/
theorem act {f f' : S → S} (h : ∀ s lc o, f' (s.renamed ρ lc o) = (f s).renamed ρ lc o) : Tracks ρ (V.upd f) (V.upd f') :=
  upd fun s lc o => ⟨lc, o, h s lc o⟩
theorem when {c : Bool} {a a' : V} (h : Tracks ρ a a') : Tracks ρ (V.when c a) (V.when c a') := by
  cases c with
  | true => exact h
  | false => exact skip
theorem alt {c : Bool} {a a' b b' : V} (h : Tracks ρ a a') (k : Tracks ρ b b') : Tracks ρ (V.alt c a b) (V.alt c a' b') := by
  cases c with
  | true => exact h
  | false => exact k
theorem ite {c c' : Prop} [Decidable c] [Decidable c'] {a a' b b' : V} (hc : c' ↔ c) (ha : Tracks ρ a a') (hb : Tracks ρ b b') :
    Tracks ρ (if c then a else b) (if c' then a' else b') := by
  by_cases h : c
  · rw [if_pos h, if_pos (hc.mpr h)]; exact ha
  · rw [if_neg h, if_neg (fun h' => h (hc.mp h'))]; exact hb
theorem lift {α : Type} {x : Except Err α} {f f' : α → V} (h : ∀ a, Tracks ρ (f a) (f' a)) : Tracks ρ (V.lift x f) (V.lift x f') := by
  cases x with
  | ok a => exact h a
  | error e => exact raise e
theorem lifted {α : Type} {m : α → α} {x : Except Err α} {f f' : α → V} (h : ∀ a, Tracks ρ (f a) (f' (m a))) : Tracks ρ (V.lift x f) (V.lift (outcome m x) f') := by
  cases x with
  | ok a => exact h a
  | error e => exact raise e
theorem opt {α : Type} {x : Option α} {a a' : V} {f f' : α → V} (h0 : Tracks ρ a a') (h : ∀ v, Tracks ρ (f v) (f' v)) :
    Tracks ρ (V.opt x a f) (V.opt x a' f') := by
  cases x with
  | none => exact h0
  | some v => exact h v
theorem optd {α : Type} {m : α → α} {x : Option α} {a a' : V} {f f' : α → V} (h0 : Tracks ρ a a') (h : ∀ v, x = some v → Tracks ρ (f v) (f' (m v))) :
    Tracks ρ (V.opt x a f) (V.opt (x.map m) a' f') := by
  cases x with
  | none => exact h0
  | some v => exact h v rfl
theorem each {α : Type} {f f' : α → V} (h : ∀ x, Tracks ρ (f x) (f' x)) : ∀ l, Tracks ρ (V.each f l) (V.each f' l)
  | [] => skip
  | x :: l => seq (h x) (each h l)
theorem eached {α : Type} {m : α → α} {f f' : α → V} : ∀ l : List α, (∀ x ∈ l, Tracks ρ (f x) (f' (m x))) → Tracks ρ (V.each f l) (V.each f' (l.map m))
  | [], _ => skip
  | x :: l, h => seq (h x (by simp)) (eached l fun y hy => h y (by simp [hy]))
theorem scope {a a' : V} (h : Tracks ρ a a') : Tracks ρ (inScope a) (inScope a') := rd fun s _ _ => seq h (act fun _ _ _ => rfl)
theorem flag (f : Flag) : Tracks ρ (setFlag f) (setFlag f) := act fun _ _ _ => rfl

section
variable {env : Env} {o : List String → List String}
theorem print (l msg msg' ent ent' line line' vs pl) : Tracks ρ (verbosePrint env l msg ent line vs pl) (verbosePrint (env.listing o) l msg' ent' line' vs pl) := by
  show Tracks ρ (V.lift (violates env vs) _) (V.lift (violates env vs) _)
  exact lift fun b => when (upd fun s lc o => ⟨lc, _, rfl⟩)
theorem found (f : Flag) (msg msg' : String) (vs : Option Req) (line line' : LineArg) (pl : Option Bool) :
    Tracks ρ (found env f msg vs line pl) (Vermin.found (env.listing o) f msg' vs line' pl) := seq (flag f) (print ..)
theorem nprint (msg msg' : String) : Tracks ρ (nprintV env msg) (nprintV (env.listing o) msg') := when (upd fun s lc o => ⟨lc, _, rfl⟩)

/-- An entity is found. -/
theorem find {f f' : S → S} (hf : ∀ s lc o, f' (s.renamed ρ lc o) = (f s).renamed ρ lc o) (x x' : Ent) (l l' c c' : Option Nat) :
    Tracks ρ (V.upd fun s => (f s).addLineCol x l c) (V.upd fun s => (f' s).addLineCol x' l' c') := upd fun s lc o => by
  rw [hf]
  cases l <;> cases l' <;> exact ⟨_, _, rfl⟩

variable (hρ : Neutral env o ρ)
include hρ
theorem module (m : String) (l l' c c') : Tracks ρ (addModule env m l c) (addModule (env.listing o) (ρ m) l' c') := by
  refine rd fun s _ _ => ite ?_ (print ..) (ite ?_ (print ..) ?_)
  · rw [← contains_renamed hρ.inj s.userDefs m]; rfl
  · rw [← hρ.excluded m]; rfl
  · show Tracks ρ _ (V.when (!(s.modules.map ρ).contains (ρ m)) _)
    rw [contains_renamed hρ.inj]
    exact when (find (fun s _ _ => by simp [S.renamed]) ..)
theorem member (m : String) (l l' c c') : Tracks ρ (addMember env m l c) (addMember (env.listing o) (ρ m) l' c') := by
  refine rd fun s _ _ => ite ?_ (print ..) (ite ?_ (print ..) ?_)
  · rw [← contains_renamed hρ.inj s.userDefs m]; rfl
  · rw [← hρ.excluded m]; rfl
  · show Tracks ρ _ (V.when (env.tables.mem (ρ m)).isSome _)
    rw [table_renamed hρ.inj hρ.mem]
    exact when (find (fun s _ _ => by simp [S.renamed]) ..)
theorem kwargs (f : String) (k : Option String) (l l') : Tracks ρ (addKwargs env f k l) (addKwargs (env.listing o) (ρ f) (k.map ρ) l') := by
  refine rd fun s _ _ => ite ?_ (print ..) (ite ?_ (print ..) ?_)
  · rw [← contains_renamed hρ.inj s.userDefs f]; rfl
  · rw [← hρ.excludedKw f k]; rfl
  · show Tracks ρ _ (V.when (!(s.kwargs.map fun k => (ρ k.1, k.2.map ρ)).contains (ρ f, k.map ρ)) _)
    have : (s.kwargs.map fun k => (ρ k.1, k.2.map ρ)).contains (ρ f, k.map ρ) = s.kwargs.contains (f, k) := by
      rw [Bool.eq_iff_iff]
      simp only [List.contains_iff_mem, List.mem_map]
      refine ⟨?_, fun h => ⟨_, h, rfl⟩⟩
      rintro ⟨⟨f', k'⟩, hm, h⟩
      injection h with h1 h2
      rw [← hρ.inj h1]
      have : k' = k := by
        cases k <;> cases k' <;> simp at h2 ⊢
        exact hρ.inj h2
      rwa [← this]
    rw [this]
    exact when (find (fun s _ _ => by simp [S.renamed]) ..)
theorem deco (u : String) (l l') : Tracks ρ (addUserFuncDeco env u l) (addUserFuncDeco (env.listing o) (ρ u) l') := by
  refine rd fun s _ _ => ite ?_ (print ..) (ite ?_ (print ..) ?_)
  · rw [← contains_renamed hρ.inj s.userDefs u]; rfl
  · rw [← hρ.excluded u]; rfl
  · show Tracks ρ _ (V.when (env.tables.deco (ρ u)).isSome _)
    rw [table_renamed hρ.inj hρ.deco]
    exact when (find (fun s _ _ => by simp [S.renamed]) ..)
theorem userDef (x : String) : Tracks ρ (addUserDef x) (addUserDef (ρ x)) := act fun s _ _ => by
  simp only [S.renamed, addSet_renamed hρ.inj]
theorem nameRes (x y : String) : Tracks ρ (addNameRes x y) (addNameRes (ρ x) (ρ y)) := act fun s _ _ => by
  simp only [S.renamed, set_relabel hρ.inj]
theorem nameResType (x y : String) : Tracks ρ (addNameResType x y) (addNameResType (ρ x) (ρ y)) := act fun s _ _ => by
  have : (Dict.get? (relabel ρ (List.map ρ) s.nameResType) (ρ x)).getD [] = ((Dict.get? s.nameResType x).getD []).map ρ := by
    rw [get?_relabel hρ.inj]
    cases Dict.get? s.nameResType x <;> rfl
  simp only [S.renamed, this, addSet_renamed hρ.inj, set_relabel hρ.inj]
omit hρ
theorem strftime (d : String) (l l') : Tracks ρ (addStrftime d l) (addStrftime d l') := find (fun _ _ _ => rfl) ..
theorem bytesDir (d : String) (l l') : Tracks ρ (addBytesDir d l) (addBytesDir d l') := find (fun _ _ _ => rfl) ..
theorem typecode (d : String) (l l' c c') : Tracks ρ (addTypecode d l c) (addTypecode d l' c') :=
  rd fun s _ _ => when (find (fun _ _ _ => rfl) ..)
theorem errorHandler (c : Const) (l l') : Tracks ρ (addErrorHandler env c l) (addErrorHandler (env.listing o) c l') :=
  ite Iff.rfl (print ..) (find (fun _ _ _ => rfl) ..)
theorem encoding (c : Const) (l l') : Tracks ρ (addEncoding env c l) (addEncoding (env.listing o) c l') :=
  ite Iff.rfl (print ..) (find (fun _ _ _ => rfl) ..)
theorem pushFn (f : String) : Tracks ρ (pushFn f) (Vermin.pushFn (ρ f)) := act fun s _ _ => by simp [S.renamed]
theorem popFn : Tracks ρ popFn Vermin.popFn := act fun s _ _ => by simp [S.renamed, List.getLast?_map, List.map_dropLast]
theorem gate {n : Node} {a a' : V} (h : Tracks ρ a a') : Tracks ρ (gate env n a) (Vermin.gate (env.listing o) (n.renamed ρ) a') := by
  unfold Vermin.gate
  rw [renamed_line]
  exact ite Iff.rfl skip h
end
end Tracks

variable {env : Env} {o : List String → List String} {ρ : String → String}

/-- Children whose visits do the same. -/
inductive Paired (ρ : String → String) : List Child → List Child → Prop where
  | nil : Paired ρ [] []
  | cons {c c' : Child} {cs cs' : List Child} : c'.node.fld = c.node.fld → Tracks ρ c.visit c'.visit → Tracks ρ c.gvisit c'.gvisit →
      Paired ρ cs cs' → Paired ρ (c :: cs) (c' :: cs')

theorem Paired.visits {cs cs' : List Child} (h : Paired ρ cs cs') : Tracks ρ (each Child.visit cs) (each Child.visit cs') := by
  induction h with
  | nil => exact .skip
  | cons _ h _ _ ih => exact .seq h ih
theorem Paired.gvisits {cs cs' : List Child} (h : Paired ρ cs cs') : Tracks ρ (each Child.gvisit cs) (each Child.gvisit cs') := by
  induction h with
  | nil => exact .skip
  | cons _ _ h _ ih => exact .seq h ih
theorem Paired.filter {cs cs' : List Child} (h : Paired ρ cs cs') (p : Child → Bool) (hp : ∀ c c' : Child, c'.node.fld = c.node.fld → p c' = p c) :
    Paired ρ (cs.filter p) (cs'.filter p) := by
  induction h with
  | nil => exact .nil
  | cons hn h1 h2 _ ih =>
    rw [List.filter_cons, List.filter_cons, hp _ _ hn]
    split
    · exact .cons hn h1 h2 ih
    · exact ih

theorem genEnter_tracks (m m' : Node) (hl : m'.info.line = m.info.line) : Tracks ρ (genEnter env m) (genEnter (env.listing o) m') := by
  unfold genEnter
  rw [hl]
  exact .seq (.seq (.opt .skip fun _ => .act fun _ _ _ => rfl) (.act fun _ _ _ => rfl)) (.when (.rd fun s _ _ => .nprint ..))
theorem gen_tracks (m m' : Node) (hl : m'.info.line = m.info.line) {cs cs' : List Child} (h : Paired ρ cs cs') : Tracks ρ (gen env m cs) (gen (env.listing o) m' cs') :=
  .seq (.seq (genEnter_tracks m m' hl) h.visits) (.act fun _ _ _ => rfl)

/-! ### The methods -/

section
variable {n : Node} {cs cs' : List Child}
theorem sweep (n : Node) (h : Paired ρ cs cs') : Tracks ρ (gen env n cs) (gen (env.listing o) (n.renamed ρ) cs') := gen_tracks n _ (renamed_infoLine n) h

theorem checkUnpacking_tracks (n : Node) : Tracks ρ (checkUnpacking env n) (checkUnpacking (env.listing o) (n.renamed ρ)) := by
  unfold checkUnpacking
  rw [unpacks_renamed]
  exact .when (.found ..)
theorem typecodeArgs_tracks (n : Node) (k : Nat) : Tracks ρ (typecodeArgs n k) (typecodeArgs (n.renamed ρ) k) := by
  unfold typecodeArgs
  rw [renamed_fields]
  refine .eached _ fun a _ => ?_
  rw [renamed_strVal]
  exact .opt .skip fun _ => .typecode ..
theorem arg_renamed (n : Node) (idx : Nat) : (((n.renamed ρ).fields .args)[idx]?).bind Node.constVal = ((n.fields .args)[idx]?).bind Node.constVal := by
  rw [renamed_fields, List.getElem?_map, renamed_bind _ _ renamed_constVal]

variable (hρ : Neutral env o ρ)
include hρ

theorem addUserDefNode_tracks (x : Node) : Tracks ρ (addUserDefNode x) (addUserDefNode (x.renamed ρ)) := by
  unfold addUserDefNode
  rw [renamed_kind]
  cases x.kind with
  | name id c =>
    cases c with
    | store => exact .userDef hρ _
    | _ => exact .skip
  | _ => exact .skip
theorem addTargets_tracks (t : Node) : Tracks ρ (addTargets t) (addTargets (t.renamed ρ)) := by
  unfold addTargets
  rw [assignTargetWalk_renamed]
  exact .eached _ fun x _ => addUserDefNode_tracks hρ x

theorem addAlias_tracks (x y : String) : Tracks ρ (addAlias x y) (addAlias (ρ x) (ρ y)) :=
  .seq (.act fun s _ _ => by simp only [S.renamed, set_relabel hρ.inj]) (.userDef hρ _)
theorem aliasOf_renamed (a : Node) : aliasOf (a.renamed ρ) = (ρ (aliasOf a).1, (aliasOf a).2.map ρ) := by
  unfold aliasOf
  rw [renamed_kind]
  cases a.kind with
  | alias x y => rfl
  | _ => simp [Kind.renamed, hρ.nil]
theorem visitImport_tracks : Tracks ρ (visitImport env n) (visitImport (env.listing o) (n.renamed ρ)) := by
  refine .gate ?_
  rw [renamed_fields]
  refine .eached _ fun a _ => ?_
  unfold importName
  rw [aliasOf_renamed hρ]
  exact .seq (.seq (.module hρ ..) (.member hρ ..)) (.optd .skip fun _ _ => addAlias_tracks hρ _ _)
theorem visitImportFrom_tracks (m : Option String) (l : Nat) :
    Tracks ρ (visitImportFrom env n m l) (visitImportFrom (env.listing o) (n.renamed ρ) (m.map ρ) l) := by
  refine .optd .skip fun m _ => .when (.gate (.seq (.module hρ ..) ?_))
  rw [renamed_fields]
  refine .eached _ fun a _ => ?_
  unfold importFromName
  rw [aliasOf_renamed hρ]
  dsimp only
  rw [← hρ.dot]
  have : decide (ρ (aliasOf a).1 ≠ "*") = decide ((aliasOf a).1 ≠ "*") := by simp only [ne_eq, hρ.is (w := "*") (by decide)]
  rw [this]
  exact .seq (.when (.seq (.seq (.seq (.act fun s _ _ => by simp only [S.renamed, set_relabel hρ.inj]) (.module hρ ..)) (.member hρ ..)) (.member hρ ..)))
    (.optd .skip fun _ _ => addAlias_tracks hρ _ _)
theorem visitName_tracks (id : String) : Tracks ρ (visitName env id) (visitName (env.listing o) (ρ id)) := by
  unfold visitName
  refine .ite (hρ.is (by decide) id) (.rd fun s _ _ => .ite Iff.rfl (.print ..) (.ite ?_ (.print ..) (.found ..))) ?_
  · rw [← contains_renamed hρ.inj s.userDefs "long", hρ.word "long" (by decide)]; rfl
  · rw [decide_eq_decide.mpr (or_congr (hρ.is (w := "True") (by decide) id) (hρ.is (w := "False") (by decide) id))]
    exact .when (.seq (.flag _) (.print ..))
omit hρ in
theorem visitStarred_tracks (ctx : Ctx) (h : Paired ρ cs cs') : Tracks ρ (visitStarred env n ctx cs) (visitStarred (env.listing o) (n.renamed ρ) ctx cs') :=
  .seq (.when (.found ..)) (sweep n h)

theorem encodingKws_tracks (n : Node) : Tracks ρ (addCodecsEncodingKws env n) (addCodecsEncodingKws (env.listing o) (n.renamed ρ)) := by
  unfold addCodecsEncodingKws
  rw [renamed_fields]
  refine .eached _ fun a _ => ?_
  rw [hρ.isEncodingKw, kwConst_renamed]
  exact .when (.opt .skip fun _ => .encoding ..)
theorem checkCodecs_tracks (f : String) (n : Node) : Tracks ρ (checkCodecsFunction env f n) (checkCodecsFunction (env.listing o) (ρ f) (n.renamed ρ)) := by
  unfold checkCodecsFunction addCodecsErrorHandler addCodecsEncoding
  rw [show (env.listing o).tables.errorsIndex (ρ f) = env.tables.errorsIndex f from table_renamed hρ.inj hρ.errors f,
    show (env.listing o).tables.encodingsIndices (ρ f) = env.tables.encodingsIndices f from table_renamed hρ.inj hρ.encodings f]
  refine .seq (.opt .skip fun idx => .seq ?_ ?_) (.opt .skip fun idxs => .each (fun idx => ?_) _)
  · rw [arg_renamed]
    exact .opt .skip fun _ => .errorHandler ..
  · rw [renamed_fields]
    refine .eached _ fun a _ => ?_
    rw [kwArg_renamed, kwConst_renamed, decide_eq_decide.mpr (hρ.isSome (w := "errors") (by decide) (kwArg a))]
    exact .when (.opt .skip fun _ => .errorHandler ..)
  · unfold addCodecsEncodingIdx
    rw [arg_renamed]
    exact .opt (encodingKws_tracks hρ n) fun _ => .ite Iff.rfl (.encoding ..) (.seq (.encoding ..) (encodingKws_tracks hρ n))
theorem callName_tracks (n : Node) (id : String) : Tracks ρ (callName env n id) (callName (env.listing o) (n.renamed ρ) (ρ id)) := by
  refine .seq (.seq (.seq (.pushFn id) (.member hρ ..)) (.rd fun s lc t => ?_)) (.rd fun s lc t => ?_)
  · show Tracks ρ _ (match Dict.get? (relabel ρ ρ s.importMemMod) (ρ id) with | some m => _ | none => _)
    rw [get?_relabel hρ.inj]
    cases Dict.get? s.importMemMod id with
    | some m =>
      have := checkCodecs_tracks hρ (m ++ "." ++ id) n
      rwa [hρ.dot] at this
    | none =>
      show Tracks ρ _ (match Dict.get? (relabel ρ ρ s.moduleAs) (ρ id) with | some m => _ | none => _)
      rw [get?_relabel hρ.inj]
      dsimp only
      cases Dict.get? s.moduleAs id with
      | some m => exact checkCodecs_tracks hρ _ n
      | none => exact .skip
  · rw [renamed_fields, isInversePow_renamed, List.length_map, List.isEmpty_map]
    have h : Dict.get? (relabel ρ ρ s.moduleAs) (ρ id) = some "array.array" ↔ Dict.get? s.moduleAs id = some "array.array" := by
      rw [get?_relabel hρ.inj]
      exact hρ.isSome (by decide) _
    refine .ite (hρ.is (by decide) id) (.flag _) (.ite (or_congr (hρ.is (by decide) id) h) (typecodeArgs_tracks n 6)
      (.ite (and_congr (hρ.is (by decide) id) Iff.rfl) (.when (.found ..)) ?_))
    rw [decide_eq_decide.mpr (hρ.is (w := "super") (by decide) id)]
    exact .when (.found ..)
theorem callAttr_tracks (n f : Node) (attr : String) : Tracks ρ (callAttr env n f attr) (callAttr (env.listing o) (n.renamed ρ) (f.renamed ρ) (ρ attr)) := by
  refine .seq ?_ (.rd fun s lc t => ?_)
  · unfold callAttrSpecial
    rw [isFormat27_renamed, renamed_fields, decide_eq_decide.mpr (or_congr (hρ.is (w := "strftime") (by decide) attr) (hρ.is (w := "strptime") (by decide) attr))]
    refine .ite (hρ.is (by decide) attr) (.when (.seq (.print ..) (.flag _))) (.when (.eached _ fun a _ => ?_))
    rw [renamed_constVal]
    refine .opt .skip fun c => ?_
    cases c with
    | str t => exact .each (fun d => .strftime ..) _
    | _ => exact .raise _
  · show Tracks ρ _ (V.lift (dottedAttr (relabel ρ ρ s.moduleAs) (f.renamed ρ)) _)
    rw [hρ.dottedAttr]
    refine .lifted fun name => .seq (.seq (.pushFn name) (checkCodecs_tracks hρ name n)) ?_
    rw [decide_eq_decide.mpr (hρ.is (w := "array.array") (by decide) name)]
    exact .when (typecodeArgs_tracks n 12)
theorem visitCall_tracks (h : Paired ρ cs cs') : Tracks ρ (visitCall env n cs) (visitCall (env.listing o) (n.renamed ρ) cs') := by
  refine .gate (.seq (.seq (.seq ?_ (checkUnpacking_tracks n)) (sweep n h)) .popFn)
  rw [renamed_field]
  refine .optd .skip fun f _ => ?_
  unfold callFunc
  rw [renamed_kind]
  cases f.kind with
  | name id c => exact callName_tracks hρ n _
  | «attribute» a => exact callAttr_tracks hρ n f _
  | _ => exact .skip

omit hρ in
theorem head_renames (full : List (Option String)) : (renames ρ full).head?.getD none = (full.head?.getD none).map ρ := by
  cases full with
  | nil => rfl
  | cons x l => cases x <;> rfl
theorem lookup_renames (d : Dict String String) (full : List (Option String)) :
    ((renames ρ full).head?.getD none).bind (Dict.get? (relabel ρ ρ d)) = ((full.head?.getD none).bind (Dict.get? d)).map ρ := by
  rw [head_renames]
  cases full.head?.getD none with
  | none => rfl
  | some x => exact get?_relabel hρ.inj _ d x
theorem attrModules_tracks (full : List (Option String)) (dot : String) (l l' : Nat) :
    ∀ k i, Tracks ρ (attrModules env full dot l k i) (attrModules (env.listing o) (renames ρ full) (ρ dot) l' k i)
  | 0, _ => .skip
  | k + 1, i => .rd fun s lc t => by
      rw [show (s.renamed ρ lc t).modules[i]? = (s.modules[i]?).map ρ from List.getElem?_map ..]
      refine .optd .skip fun m _ => .seq (.rd fun s lc t => .ite ?_ (.module hρ ..) ?_) (attrModules_tracks full dot l l' k (i + 1))
      · rw [renames, List.head?_map]
        cases full.head? with
        | none => simp
        | some x =>
          cases x with
          | none => simp
          | some y => simp only [Option.map_some, Option.some.injEq]; exact ⟨hρ.inj, fun h => h ▸ rfl⟩
      · rw [show (s.renamed ρ lc t).importMemMod = relabel ρ ρ s.importMemMod from rfl, lookup_renames hρ]
        refine .optd .skip fun m _ => ?_
        rw [show some (ρ m) :: renames ρ full = renames ρ (some m :: full) from rfl, hρ.dotted]
        exact .member hρ ..
theorem attrNameRes_tracks (full : List (Option String)) (l l' : Nat) : Tracks ρ (attrNameRes env full l) (attrNameRes (env.listing o) (renames ρ full) l') := by
  refine .rd fun s lc t => ?_
  have hd : (renames ρ full).drop 1 = renames ρ (full.drop 1) := by simp [renames]
  rw [show (s.renamed ρ lc t).nameRes = relabel ρ ρ s.nameRes from rfl, lookup_renames hρ, hd]
  refine .optd .skip fun res _ => .seq ?_ ?_
  · rw [show (s.renamed ρ lc t).importMemMod = relabel ρ ρ s.importMemMod from rfl, get?_relabel hρ.inj]
    refine .optd ?_ fun m _ => ?_
    · rw [show some (ρ res) :: renames ρ (full.drop 1) = renames ρ (some res :: full.drop 1) from rfl, hρ.dotted]
      exact .member hρ ..
    · rw [show some (ρ m) :: some (ρ res) :: renames ρ (full.drop 1) = renames ρ (some m :: some res :: full.drop 1) from rfl, hρ.dotted]
      exact .member hρ ..
  · unfold attrTwoTier
    rw [hρ.split, hd, show (s.renamed ρ lc t).nameRes = relabel ρ ρ s.nameRes from rfl]
    cases splitDots res with
    | nil => exact .skip
    | cons p ps =>
      simp only [List.map_cons]
      rw [get?_relabel hρ.inj]
      refine .optd .skip fun r _ => ?_
      rw [show some (ρ r) :: ((ps.map ρ).map some ++ renames ρ (full.drop 1)) = renames ρ (some r :: (ps.map some ++ full.drop 1)) by
        simp [renames], hρ.dotted]
      exact .member hρ ..
theorem visitAttribute_tracks (n : Node) (h : Paired ρ cs cs') : Tracks ρ (visitAttribute env n cs) (visitAttribute (env.listing o) (n.renamed ρ) cs') := by
  refine .seq (.rd fun s lc t => ?_) (sweep n h)
  show Tracks ρ _ (V.lift (attributeName (relabel ρ ρ s.moduleAs) (n.renamed ρ)) _)
  rw [hρ.attributeName]
  refine .lifted fun full => ?_
  rw [show (renames ρ full).isEmpty = full.isEmpty from List.isEmpty_map, hρ.dotted, show (s.renamed ρ lc t).modules.length = s.modules.length from List.length_map ..]
  exact .when (.seq (.seq (attrModules_tracks hρ ..) (.member hρ ..)) (attrNameRes_tracks hρ ..))

theorem kwTarget_renamed (s : S) (lc t) (f : String) : kwTarget (s.renamed ρ lc t) (ρ f) = ρ (kwTarget s f) := by
  have hh : (splitDots (ρ f)).headD "" = ρ ((splitDots f).headD "") := by
    rw [hρ.split]
    cases splitDots f with
    | nil => exact hρ.nil.symm
    | cons x l => rfl
  have hd : ((splitDots (ρ f)).drop 1).map some = renames ρ (((splitDots f).drop 1).map some) := by
    rw [hρ.split]
    simp only [renames, ← List.map_drop, List.map_map]
    rfl
  unfold kwTarget kwTargetVar
  rw [hh, hd]
  simp only [S.renamed, get?_relabel hρ.inj]
  cases Dict.get? s.importMemMod f with
  | some m => exact hρ.dotted [some m, some f]
  | none =>
    dsimp only [Option.map]
    cases Dict.get? s.importMemMod ((splitDots f).headD "") with
    | some m => exact hρ.dotted [some m, some f]
    | none =>
      dsimp only [Option.map]
      cases Dict.get? s.nameRes ((splitDots f).headD "") with
      | none => rfl
      | some res =>
        dsimp only [Option.map]
        rw [get?_relabel hρ.inj]
        cases Dict.get? s.importMemMod res with
        | none => exact hρ.dotted (some res :: ((splitDots f).drop 1).map some)
        | some m => exact hρ.dotted (some m :: some res :: ((splitDots f).drop 1).map some)
theorem visitKeyword_tracks (a : Option String) (h : Paired ρ cs cs') :
    Tracks ρ (visitKeyword env n a cs) (visitKeyword (env.listing o) (n.renamed ρ) (a.map ρ) cs') := by
  refine .rd fun s lc t => .seq ?_ ?_
  · rw [show (s.renamed ρ lc t).fnStack = s.fnStack.map ρ from rfl]
    refine .eached _ fun f _ => ?_
    rw [kwTarget_renamed hρ]
    exact .kwargs hρ ..
  · have : ((s.renamed ρ lc t).fnStack.any fun f => kwargsAdded (env.listing o) (s.renamed ρ lc t) (kwTarget (s.renamed ρ lc t) f) (a.map ρ)) =
        s.fnStack.any fun f => kwargsAdded env s (kwTarget s f) a := by
      rw [show (s.renamed ρ lc t).fnStack = s.fnStack.map ρ from rfl, List.any_map]
      congr 1
      funext f
      simp only [Function.comp, kwTarget_renamed hρ, kwargsAdded]
      rw [show (s.renamed ρ lc t).userDefs = s.userDefs.map ρ from rfl, contains_renamed hρ.inj,
        show (env.listing o).cfg.isExcludedKwarg (ρ (kwTarget s f)) (kwText (a.map ρ)) = _ from hρ.excludedKw _ _]
    rw [this]
    exact .when (sweep n h)

theorem nameOrAttr_renamed (s : S) (n : Node) (lc t) : nameOrAttr (s.renamed ρ lc t) (n.renamed ρ) = outcome (Option.map ρ) (nameOrAttr s n) := by
  unfold nameOrAttr
  rw [renamed_kind, show (s.renamed ρ lc t).moduleAs = relabel ρ ρ s.moduleAs from rfl, hρ.dottedAttr]
  cases n.kind with
  | «attribute» a => simp only [Kind.renamed]; cases dottedAttr s.moduleAs n <;> rfl
  | _ => rfl
theorem maybeType_renamed (s : S) (x : String) (lc t) : maybeType (s.renamed ρ lc t) (ρ x) = maybeType s x := by
  simp only [maybeType, S.renamed, has_relabel hρ.inj, contains_renamed hρ.inj]
theorem isNoneOrName_renamed (s : S) (n : Node) (lc t) : isNoneOrName (s.renamed ρ lc t) (n.renamed ρ) = isNoneOrName s n := by
  unfold isNoneOrName
  rw [hρ.isNone, nameOrAttr_renamed hρ]
  split
  · rfl
  · cases nameOrAttr s n with
    | error e => rfl
    | ok x =>
      cases x with
      | none => rfl
      | some x => simp only [outcome, Option.map_some, maybeType_renamed hρ]
theorem isUnionType_renamed (s : S) (n : Node) (lc t) : isUnionType (s.renamed ρ lc t) (n.renamed ρ) = isUnionType s n := by
  unfold isUnionType
  rw [nameOrAttr_renamed hρ]
  cases nameOrAttr s n with
  | error e => rfl
  | ok x =>
    cases x with
    | none => rfl
    | some x =>
      simp only [outcome, Option.map_some, S.renamed, has_relabel hρ.inj, contains_renamed hρ.inj, get?_relabel hρ.inj]
      cases Dict.get? s.nameResType x with
      | none => rfl
      | some l => simp only [Option.map_some, List.length_map]
theorem resolveName_renamed (s : S) (x : String) (lc t) : resolveName (s.renamed ρ lc t) (ρ x) = ρ (resolveName s x) := by
  unfold resolveName
  have : (Dict.get? (s.renamed ρ lc t).nameRes (ρ x)).getD (ρ x) = ρ ((Dict.get? s.nameRes x).getD x) := by
    simp only [S.renamed, get?_relabel hρ.inj]
    cases Dict.get? s.nameRes x <;> rfl
  rw [this]
  generalize (Dict.get? s.nameRes x).getD x = y
  simp only [S.renamed, get?_relabel hρ.inj]
  cases Dict.get? s.moduleAs y with
  | some m => rfl
  | none =>
    dsimp only [Option.map]
    cases Dict.get? s.importMemMod y with
    | some m => exact hρ.dotted [some m, some y]
    | none => rfl
theorem resolvesTo_renamed (s : S) {types : List String} (ht : ∀ x ∈ types, ρ x = x) (n : Node) (lc t) :
    resolvesTo (s.renamed ρ lc t) types (n.renamed ρ) = resolvesTo s types n := by
  unfold resolvesTo resolveFullName
  rw [show (s.renamed ρ lc t).moduleAs = relabel ρ ρ s.moduleAs from rfl, hρ.plainName]
  cases plainName s.moduleAs n with
  | error e => rfl
  | ok x =>
    cases x with
    | none => rfl
    | some x => simp only [outcome, Option.map_some, resolveName_renamed hρ, contains_kept hρ.inj ht]
theorem isDictUnion_renamed (s : S) (a b : Node) (lc t) :
    isDictUnion (env.listing o) (s.renamed ρ lc t) (a.renamed ρ) (b.renamed ρ) = isDictUnion env s a b := by
  unfold isDictUnion
  rw [show (s.renamed ρ lc t).nameRes = relabel ρ ρ s.nameRes from rfl, hρ.isDict, hρ.isDict,
    show (env.listing o).tables.dictUnion = env.tables.dictUnion from rfl, resolvesTo_renamed hρ s hρ.union, resolvesTo_renamed hρ s hρ.union]
theorem visitBinOp_tracks (n : Node) (h : Paired ρ cs cs') : Tracks ρ (visitBinOp env n cs) (visitBinOp (env.listing o) (n.renamed ρ) cs') := by
  unfold visitBinOp
  rw [operator_renamed, renamed_field, renamed_field]
  refine .seq (.seq (.when (.optd .skip fun l _ => ?_)) (.when (.optd .skip fun a _ => .optd .skip fun b _ => ?_))) (sweep n h)
  · unfold binMod
    rw [isBytes_renamed, hρ.isBytearrayCall]
    exact .seq (.when (.found ..)) (.when (.found ..))
  · refine .seq (.rd fun s _ _ => ?_) (.when (.rd fun s _ _ => ?_))
    · rw [isDictUnion_renamed hρ]
      exact .lift fun _ => .when (.found ..)
    · rw [isNoneOrName_renamed hρ, isNoneOrName_renamed hρ]
      exact .lift fun _ => .when (.found ..)

omit hρ in
theorem visitConstant_tracks (n : Node) (c : Const) : Tracks ρ (visitConstant env n c) (visitConstant (env.listing o) (n.renamed ρ) c) := by
  cases c with
  | bytes t => exact .seq (.found ..) (.each (fun d => .bytesDir ..) _)
  | bool b => exact .seq (.flag _) (.print ..)
  | ellipsis =>
    show Tracks ρ (visitEllipsis env n) (visitEllipsis (env.listing o) (n.renamed ρ))
    unfold visitEllipsis
    rw [renamed_uid]
    exact .rd fun s _ _ => .when (.found ..)
  | _ => exact .skip

omit hρ in
theorem visitJoinedStr_tracks (hf : env.cfg.hasFeature "fstring-self-doc" = false) (n : Node) (h : Paired ρ cs cs') :
    Tracks ρ (visitJoinedStr env n cs) (visitJoinedStr (env.listing o) (n.renamed ρ) cs') := by
  refine .seq (.seq (.found ..) ?_) (sweep n h)
  rw [show (env.listing o).cfg = env.cfg from rfl, hf]
  exact .skip

theorem addNameResAssign_tracks (n : Node) : Tracks ρ (addNameResAssign n) (addNameResAssign (n.renamed ρ)) := by
  unfold addNameResAssign
  rw [renamed_field, renamed_filter n _ fun k => by simp only [renamed_fld]]
  refine .optd .skip fun v _ => .rd fun s lc t => ?_
  rw [show (s.renamed ρ lc t).moduleAs = relabel ρ ρ s.moduleAs from rfl, hρ.assignedName]
  refine .lifted fun a => .eached _ fun t _ => ?_
  unfold bindTarget
  rw [renamed_nameId]
  refine .optd .skip fun id _ => ?_
  cases a with
  | value v => exact .nameRes hρ ..
  | type v => exact .nameResType hρ ..
  | nothing => exact .skip
theorem visitAssign_tracks (h : Paired ρ cs cs') : Tracks ρ (visitAssign env n cs) (visitAssign (env.listing o) (n.renamed ρ) cs') := by
  refine .gate (.seq (.seq ?_ (addNameResAssign_tracks hρ n)) (sweep n h))
  rw [renamed_fields]
  exact .eached _ fun t _ => addTargets_tracks hρ t
theorem visitAugAssign_tracks (h : Paired ρ cs cs') : Tracks ρ (visitAugAssign env n cs) (visitAugAssign (env.listing o) (n.renamed ρ) cs') := by
  refine .gate ?_
  rw [renamed_field, renamed_field, operator_renamed]
  refine .seq (.seq (.seq (.optd .skip fun t _ => addUserDefNode_tracks hρ t) (addNameResAssign_tracks hρ n))
    (.when (.optd .skip fun t _ => .optd .skip fun v _ => .rd fun s lc x => ?_))) (sweep n h)
  rw [show (s.renamed ρ lc x).nameRes = relabel ρ ρ s.nameRes from rfl, hρ.isDict, hρ.isDict,
    show (env.listing o).tables.dictUnionMerge = env.tables.dictUnionMerge from rfl, resolvesTo_renamed hρ s hρ.merge, isUnionType_renamed hρ, isUnionType_renamed hρ]
  exact .lift fun b => .ite Iff.rfl (.lift fun a => .lift fun b => .when (.found ..)) (.when (.lift fun b => .when (.found ..)))
theorem visitAnnAssign_tracks (h : Paired ρ cs cs') : Tracks ρ (visitAnnAssign env n cs) (visitAnnAssign (env.listing o) (n.renamed ρ) cs') := by
  refine .gate ?_
  rw [renamed_field, renamed_field]
  refine .seq (.seq (.seq (.seq (.seq (.optd .skip fun t _ => addUserDefNode_tracks hρ t) (addNameResAssign_tracks hρ n)) (.alt (sweep n h) (.flag _)))
    (.flag _)) (.found ..)) (.optd .skip fun a _ => ?_)
  unfold annKind
  rw [hρ.isAnn (w := "Final") (by decide), hρ.isAnn (w := "Literal") (by decide)]
  exact .ite Iff.rfl (.found ..) (.when (.found ..))

/-! Functions and classes. -/

omit hρ in
theorem checkRelaxed_tracks (n : Node) : Tracks ρ (checkRelaxed env n) (checkRelaxed (env.listing o) (n.renamed ρ)) := by
  unfold checkRelaxed
  rw [renamed_fields]
  refine .eached _ fun d h => .gate ?_
  rw [decoRoot_renamed, walk_renamed, any_renamed _ fun k => by rw [isNameOrAttr_renamed]]
  exact .when (.found ..)
omit hρ in
theorem decoLine_renamed (n : Node) : decoLine (env.listing o) (n.renamed ρ) = decoLine env n := by
  unfold decoLine
  rw [renamed_fields, List.find?_map, Option.map_map]
  have h1 : ((fun d : Node => !(env.listing o).isNoLine d.line) ∘ Node.renamed ρ) = fun d => !env.isNoLine d.line := by
    funext d; simp only [Function.comp, renamed_line]; rfl
  have h2 : Node.line ∘ Node.renamed ρ = Node.line := by funext d; exact renamed_line d
  rw [h1, h2]
theorem decoName_renamed (s : S) (x : String) (lc t) : decoName (s.renamed ρ lc t) (ρ x) = ρ (decoName s x) := by
  unfold decoName
  simp only [S.renamed, get?_relabel hρ.inj]
  cases Dict.get? s.importMemMod x with
  | some m => exact hρ.dotted [some m, some x]
  | none =>
    dsimp only [Option.map]
    cases Dict.get? s.moduleAs x <;> rfl
theorem funcDecos_tracks (n : Node) : Tracks ρ (funcDecos env n) (funcDecos (env.listing o) (n.renamed ρ)) := by
  unfold funcDecos
  rw [decoLine_renamed]
  refine .opt .skip fun l => .seq (.seq (.found ..) (checkRelaxed_tracks n)) ?_
  unfold checkUserFuncDecos
  rw [renamed_fields]
  refine .eached _ fun d h => .gate (.rd fun s _ _ => ?_)
  rw [nameOrAttr_renamed hρ]
  refine .lifted fun x => .optd .skip fun x _ => ?_
  rw [decoName_renamed hρ]
  exact .deco hρ ..
theorem dirFuncs_tracks (n : Node) (name : String) : Tracks ρ (dirFuncs env n name) (dirFuncs (env.listing o) (n.renamed ρ) (ρ name)) := by
  unfold dirFuncs
  rw [renamed_field]
  refine .optd .skip fun a _ => .rd fun s lc t => ?_
  rw [renamed_fields, renamed_fields, renamed_fields, renamed_field, List.length_map, List.isEmpty_map, List.isEmpty_map, Option.isNone_map,
    decide_eq_decide.mpr (and_congr (hρ.is (w := "__getattr__") (by decide) name) (Iff.rfl (a := (a.fields .args).length = 1)))]
  exact .when (.ite (and_congr (hρ.is (by decide) name) Iff.rfl) (.found ..) (.when (.found ..)))
theorem argAnns_tracks (n : Node) : ∀ l : List Node, Tracks ρ (argAnns env n l) (argAnns (env.listing o) (n.renamed ρ) (l.map (renamed ρ)))
  | [] => .skip
  | a :: as => by
    simp only [List.map_cons, argAnns]
    rw [renamed_field]
    refine .optd (argAnns_tracks n as) fun ann _ => .seq (.found ..) (.rd fun s lc t => ?_)
    have : isLiteralAnn (s.renamed ρ lc t) (ann.renamed ρ) = isLiteralAnn s ann := by
      unfold isLiteralAnn
      rw [hρ.isAnn (w := "Literal") (by decide), show (s.renamed ρ lc t).moduleAs = relabel ρ ρ s.moduleAs from rfl, hρ.dottedAttr]
      cases dottedAttr s.moduleAs ann with
      | error e => rfl
      | ok d => simp only [outcome, hρ.is (w := "Literal") (by decide) d, hρ.is (w := "typing.Literal") (by decide) d]
    rw [this]
    exact .lift fun b => .alt (.alt (.found ..) (.flag _)) (argAnns_tracks n as)
theorem handleFunctionDef_tracks (name : String) (h : Paired ρ cs cs') :
    Tracks ρ (handleFunctionDef env n name cs) (handleFunctionDef (env.listing o) (n.renamed ρ) (ρ name) cs') := by
  refine .seq (.seq (.seq (.seq (.userDef hρ _) (dirFuncs_tracks hρ n name)) (funcDecos_tracks hρ n)) (.scope (gen_tracks _ _ ?_ ?_))) ?_
  · exact renamed_infoLine n
  · exact h.filter _ fun c c' hc => by rw [hc]
  · unfold funcAnns
    rw [renamed_field, Option.isSome_map, paramsOf_renamed]
    exact .alt (.found ..) (argAnns_tracks hρ n _)
theorem visitFunctionDef_tracks (name : String) (h : Paired ρ cs cs') :
    Tracks ρ (visitFunctionDef env n name cs) (visitFunctionDef (env.listing o) (n.renamed ρ) (ρ name) cs') :=
  .gate (.rd fun s _ _ => .seq (handleFunctionDef_tracks hρ name h) (.act fun _ _ _ => rfl))
theorem visitAsyncFunctionDef_tracks (name : String) (h : Paired ρ cs cs') :
    Tracks ρ (visitAsyncFunctionDef env n name cs) (visitAsyncFunctionDef (env.listing o) (n.renamed ρ) (ρ name) cs') :=
  .gate (.rd fun s _ _ => .seq (.seq (.seq (handleFunctionDef_tracks hρ name h) (.found ..)) (.rd fun t _ _ => .when (.found ..))) (.act fun _ _ _ => rfl))
omit hρ in
theorem visitAwait_tracks (h : Paired ρ cs cs') : Tracks ρ (visitAwait env n cs) (visitAwait (env.listing o) (n.renamed ρ) cs') :=
  .gate (.seq (.seq (.found ..) (.act fun _ _ _ => rfl)) (sweep n h))
theorem visitClassDef_tracks (name : String) (h : Paired ρ cs cs') :
    Tracks ρ (visitClassDef env n name cs) (visitClassDef (env.listing o) (n.renamed ρ) (ρ name) cs') := by
  refine .gate (.seq (.seq (.seq (.seq (.seq (.userDef hρ _) (.nameResType hρ _ _)) ?_) ?_) (sweep n h)) ?_)
  · unfold classDecos
    rw [decoLine_renamed]
    exact .opt .skip fun l => .seq (.found ..) (checkRelaxed_tracks n)
  · unfold metaclassKw
    rw [renamed_fields]
    refine .eached _ fun k _ => ?_
    rw [kwArg_renamed, decide_eq_decide.mpr (hρ.isSome (w := "metaclass") (by decide) (kwArg k))]
    exact .when (.found ..)
  · exact (h.filter _ fun c c' hc => by rw [hc]).gvisits
theorem visitNamedExpr_tracks (h : Paired ρ cs cs') : Tracks ρ (visitNamedExpr env n cs) (visitNamedExpr (env.listing o) (n.renamed ρ) cs') := by
  refine .gate (.seq (.seq ?_ (.found ..)) (sweep n h))
  rw [renamed_field]
  exact .optd .skip fun t _ => addUserDefNode_tracks hρ t
theorem visitArguments_tracks (n : Node) (h : Paired ρ cs cs') : Tracks ρ (visitArguments env n cs) (visitArguments (env.listing o) (n.renamed ρ) cs') := by
  unfold visitArguments
  simp only [renamed_fields, List.isEmpty_map, ← List.map_append]
  refine .seq (.seq (.seq (.when (.found ..)) (.when (.found ..))) (.eached _ fun a _ => ?_)) (sweep n h)
  rw [argName_renamed]
  exact .optd .skip fun _ _ => .userDef hρ _

/-! Statements. -/

theorem namesAsMembers_tracks (x : Node) : Tracks ρ (namesAsMembers env x) (namesAsMembers (env.listing o) (x.renamed ρ)) := by
  unfold namesAsMembers
  rw [walk_renamed]
  refine .eached _ fun m _ => ?_
  rw [renamed_nameId]
  exact .optd .skip fun _ _ => .member hρ ..
theorem visitRaise_tracks (h : Paired ρ cs cs') : Tracks ρ (visitRaise env n cs) (visitRaise (env.listing o) (n.renamed ρ) cs') := by
  refine .gate ?_
  rw [renamed_field, renamed_field]
  refine .seq (.seq (.seq (.optd .skip fun c _ => ?_) (.optd .skip fun c _ => namesAsMembers_tracks hρ c)) (.optd .skip fun c _ => namesAsMembers_tracks hρ c))
    (sweep n h)
  unfold raiseCauseOf
  rw [hρ.isNone]
  exact .seq (.found ..) (.when (.found ..))
theorem visitExceptHandler_tracks (name : Option String) (h : Paired ρ cs cs') :
    Tracks ρ (visitExceptHandler env n name cs) (visitExceptHandler (env.listing o) (n.renamed ρ) (name.map ρ) cs') := by
  refine .gate ?_
  have : isExceptStar (env.listing o) (n.renamed ρ) = isExceptStar env n := by
    unfold isExceptStar
    rw [renamed_line, renamed_col]
    rfl
  rw [this, renamed_field]
  exact .seq (.when (.found ..)) (.scope (.seq (.seq (.optd .skip fun _ _ => .userDef hρ _) (.optd .skip fun c _ => namesAsMembers_tracks hρ c)) (sweep n h)))
theorem visitComp_tracks (n : Node) (h : Paired ρ cs cs') : Tracks ρ (visitComp env n cs) (visitComp (env.listing o) (n.renamed ρ) cs') := by
  refine .scope (.seq ?_ (sweep n h))
  unfold compTargets
  rw [renamed_fields]
  refine .eached _ fun c _ => ?_
  rw [renamed_field]
  exact .optd .skip fun t _ => addTargets_tracks hρ t
omit hρ in
theorem visitComprehension_tracks (n : Node) (b : Bool) (h : Paired ρ cs cs') :
    Tracks ρ (visitComprehension env n b cs) (visitComprehension (env.listing o) (n.renamed ρ) b cs') :=
  .seq (.when (.found ..)) (.rd fun s _ _ => .seq (.seq (sweep n h) (.rd fun t _ _ => .when (.found ..))) (.act fun _ _ _ => rfl))
omit hρ in
theorem visitContinue_tracks (n : Node) : Tracks ρ (visitContinue env n) (visitContinue (env.listing o) (n.renamed ρ)) := .rd fun s _ _ => .when (.found ..)
theorem handleWith_tracks (h : Paired ρ cs cs') : Tracks ρ (handleWith env n cs) (handleWith (env.listing o) (n.renamed ρ) cs') := by
  refine .scope (.seq (.seq ?_ ?_) (sweep n h))
  · rw [renamed_fields]
    refine .eached _ fun w _ => ?_
    rw [renamed_field]
    exact .optd .skip fun t _ => addTargets_tracks hρ t
  · rw [renamed_fields, List.length_map]
    unfold multiWith
    have : isWithParen (env.listing o) (n.renamed ρ) = isWithParen env n := by
      unfold isWithParen
      rw [renamed_line]
      rfl
    rw [this]
    exact .when (.seq (.found ..) (.when (.found ..)))
omit hρ in
theorem visitDisplay_tracks (n : Node) (h : Paired ρ cs cs') : Tracks ρ (visitDisplay env n cs) (visitDisplay (env.listing o) (n.renamed ρ) cs') :=
  .seq (checkUnpacking_tracks n) (sweep n h)
theorem genericType_tracks (name : String) : Tracks ρ (genericType env name) (genericType (env.listing o) (ρ name)) := by
  refine .alt (.rd fun s _ _ => .ite ?_ (.print ..) (.found ..)) (.flag _)
  rw [← contains_renamed hρ.inj s.userDefs name]; rfl
omit hρ in
theorem markEllipsis_tracks (n : Node) : Tracks ρ (markEllipsis n) (markEllipsis (n.renamed ρ)) := by
  unfold markEllipsis
  rw [isEllipsisNode_renamed, renamed_uid]
  exact .when (.act fun s _ _ => rfl)
omit hρ in
theorem markSubscript_tracks (sl : Node) : Tracks ρ (markSubscript sl) (markSubscript (sl.renamed ρ)) := by
  refine .seq (markEllipsis_tracks sl) ?_
  rw [renamed_kind]
  cases sl.kind with
  | tuple c =>
    simp only [Kind.renamed]
    rw [renamed_fields]
    exact .eached _ fun x _ => markEllipsis_tracks x
  | _ => exact .skip
omit hρ in
theorem markSlice_tracks (sl : Node) : Tracks ρ (markSlice sl) (markSlice (sl.renamed ρ)) := by
  unfold markSlice
  rw [renamed_kind]
  cases sl.kind with
  | extSlice =>
    simp only [Kind.renamed]
    rw [renamed_fields]
    exact .eached _ fun x _ => markEllipsis_tracks x
  | index =>
    simp only [Kind.renamed]
    rw [renamed_field]
    exact .optd .skip fun x _ => markSubscript_tracks x
  | _ => exact markSubscript_tracks sl
theorem subscriptName_tracks (coll : String) : Tracks ρ (subscriptName env coll) (subscriptName (env.listing o) (ρ coll)) := by
  have hg : ∀ x, (env.listing o).tables.genericTypes.contains (ρ x) = env.tables.genericTypes.contains x := fun x => contains_kept hρ.inj hρ.generic x
  refine .rd fun s lc t => .ite ?_ (genericType_tracks hρ _) ?_
  · rw [← hg]
  · rw [show (s.renamed ρ lc t).importMemMod = relabel ρ ρ s.importMemMod from rfl, get?_relabel hρ.inj]
    refine .optd ?_ fun m _ => ?_
    · rw [show (s.renamed ρ lc t).nameResType = relabel ρ (List.map ρ) s.nameResType from rfl, get?_relabel hρ.inj]
      refine .optd .skip fun ts _ => ?_
      rw [show (env.listing o).order (ts.map ρ) = (env.order ts).map ρ from hρ.order ts]
      refine .eached _ fun x _ => ?_
      rw [hg]
      exact .when (genericType_tracks hρ _)
    · rw [show Vermin.dotted [some (ρ m), some (ρ coll)] = _ from hρ.dotted [some m, some coll], hg]
      exact .when (genericType_tracks hρ _)
theorem visitSubscript_tracks (h : Paired ρ cs cs') : Tracks ρ (visitSubscript env n cs) (visitSubscript (env.listing o) (n.renamed ρ) cs') := by
  refine .gate ?_
  rw [renamed_field, renamed_field]
  refine .seq (.seq (.optd .skip fun v _ => .rd fun s _ _ => ?_) (.optd .skip fun sl _ => markSlice_tracks sl)) (sweep n h)
  rw [nameOrAttr_renamed hρ]
  exact .lifted fun name => .optd .skip fun coll _ => subscriptName_tracks hρ coll
theorem handleFor_tracks (h : Paired ρ cs cs') : Tracks ρ (handleFor env n cs) (handleFor (env.listing o) (n.renamed ρ) cs') := by
  refine .gate (.seq (.act fun _ _ _ => rfl) (.scope (.seq (.seq (.seq ?_ ?_) (sweep n h)) (.act fun _ _ _ => rfl))))
  · rw [renamed_field]
    exact .optd .skip fun t _ => addTargets_tracks hρ t
  · unfold forDict
    rw [renamed_field, renamed_field, renamed_bindName]
    refine .optd .skip fun id _ => .optd .skip fun it _ => .rd fun s lc t => ?_
    rw [eltsOf_renamed, show (s.renamed ρ lc t).nameRes = relabel ρ ρ s.nameRes from rfl, hρ.anyDict]
    have := Tracks.nameRes hρ id "dict"
    rw [hρ.word "dict" (by decide)] at this
    exact .lift fun b => .when this
omit hρ in
theorem visitWhile_tracks (h : Paired ρ cs cs') : Tracks ρ (visitWhile env n cs) (visitWhile (env.listing o) (n.renamed ρ) cs') :=
  .gate (.seq (.seq (.act fun _ _ _ => rfl) (sweep n h)) (.act fun _ _ _ => rfl))
omit hρ in
theorem visitTry_tracks (h : Paired ρ cs cs') : Tracks ρ (visitTry env n cs) (visitTry (env.listing o) (n.renamed ρ) cs') :=
  .gate (.seq (.seq (.seq (.act fun _ _ _ => rfl) (h.filter _ fun c c' hc => by rw [hc]).visits) (.act fun _ _ _ => rfl)) (sweep n h))
omit hρ in
theorem visitOp_tracks (n : Node) (op : Op) (h : Paired ρ cs cs') : Tracks ρ (visitOp env n op cs) (visitOp (env.listing o) (n.renamed ρ) op cs') := by
  cases op <;> first | exact .skip | exact sweep n h | exact .seq (.found ..) (sweep n h)

theorem visitAlg_tracks (hf : env.cfg.hasFeature "fstring-self-doc" = false) (n : Node) (h : Paired ρ cs cs') :
    Tracks ρ (visitAlg env n cs) (visitAlg (env.listing o) (n.renamed ρ) cs') := by
  unfold visitAlg
  rw [renamed_kind]
  cases hk : n.kind with
  | «import» => exact visitImport_tracks hρ
  | importFrom m l => exact visitImportFrom_tracks hρ m l
  | name id c => exact visitName_tracks hρ id
  | starred c => exact visitStarred_tracks c h
  | call => exact visitCall_tracks hρ h
  | «attribute» a => exact visitAttribute_tracks hρ n h
  | keyword a => exact visitKeyword_tracks hρ a h
  | binOp => exact visitBinOp_tracks hρ n h
  | const c => exact visitConstant_tracks n c
  | joinedStr => exact visitJoinedStr_tracks hf n h
  | assign => exact visitAssign_tracks hρ h
  | augAssign => exact visitAugAssign_tracks hρ h
  | annAssign => exact visitAnnAssign_tracks hρ h
  | functionDef x => exact visitFunctionDef_tracks hρ x h
  | asyncFunctionDef x => exact visitAsyncFunctionDef_tracks hρ x h
  | lambda => exact .scope (sweep n h)
  | await => exact visitAwait_tracks h
  | classDef x => exact visitClassDef_tracks hρ x h
  | namedExpr => exact visitNamedExpr_tracks hρ h
  | arguments => exact visitArguments_tracks hρ n h
  | nonlocal => exact .gate (.seq (.found ..) (sweep n h))
  | yieldFrom => exact .gate (.seq (.found ..) (sweep n h))
  | yield => exact .gate (.seq (.act fun _ _ _ => rfl) (sweep n h))
  | raise => exact visitRaise_tracks hρ h
  | exceptHandler x => exact visitExceptHandler_tracks hρ x h
  | listComp => exact visitComp_tracks hρ n h
  | generatorExp => exact visitComp_tracks hρ n h
  | setComp => exact .seq (.found ..) (visitComp_tracks hρ n h)
  | dictComp => exact .seq (.found ..) (visitComp_tracks hρ n h)
  | comprehension b => exact visitComprehension_tracks n b h
  | «continue» => exact visitContinue_tracks n
  | «with» => exact .gate (.seq (.found ..) (handleWith_tracks hρ h))
  | asyncWith => exact .gate (.seq (.found ..) (handleWith_tracks hρ h))
  | dict _ => exact visitDisplay_tracks n h
  | tuple _ => exact visitDisplay_tracks n h
  | list _ => exact visitDisplay_tracks n h
  | set => exact .seq (.found ..) (visitDisplay_tracks n h)
  | subscript => exact visitSubscript_tracks hρ h
  | «match» => exact .gate (.seq (.found ..) (sweep n h))
  | «if» => exact .gate (sweep n h)
  | ifExp => exact .gate (sweep n h)
  | boolOp => exact .gate (sweep n h)
  | «for» => exact handleFor_tracks hρ h
  | asyncFor => exact .gate (.seq (.found ..) (handleFor_tracks hρ h))
  | «while» => exact visitWhile_tracks h
  | «try» => exact visitTry_tracks h
  | typeAlias => exact .gate (.seq (.found ..) (sweep n h))
  | op p => exact visitOp_tracks n p h
  | alias _ _ => exact .skip
  | pass => exact .skip
  | «break» => exact .skip
  | _ => exact sweep n h
end

mutual
theorem visitNode_tracks (hρ : Neutral env o ρ) (hf : env.cfg.hasFeature "fstring-self-doc" = false) :
    (n : Node) → Tracks ρ (visitNode env n).1 (visitNode (env.listing o) (n.renamed ρ)).1 ∧ Tracks ρ (visitNode env n).2 (visitNode (env.listing o) (n.renamed ρ)).2
  | .mk i ks => by
    have hk := visitKids_tracks hρ hf ks
    have := visitAlg_tracks hρ hf (.mk i ks) hk
    have h2 := sweep (env := env) (o := o) (.mk i ks) hk
    simp only [Node.renamed] at this h2 ⊢
    simp only [visitNode]
    exact ⟨this, h2⟩
theorem visitKids_tracks (hρ : Neutral env o ρ) (hf : env.cfg.hasFeature "fstring-self-doc" = false) :
    (ks : List Node) → Paired ρ (visitKids env ks) (visitKids (env.listing o) (renamedAll ρ ks))
  | [] => .nil
  | k :: ks => by
    have h1 := visitNode_tracks hρ hf k
    exact .cons (renamed_fld k) h1.1 h1.2 (visitKids_tracks hρ hf ks)
end

theorem filter_renamed (hi : ∀ {x y}, ρ x = ρ y → x = y) (u : String) (l : List String) (p : Bool → Bool) :
    (l.map ρ).filter (fun x => p (x == ρ u)) = (l.filter fun x => p (x == u)).map ρ := by
  rw [List.filter_map]
  congr 1
  refine List.filter_congr fun x _ => ?_
  show p (ρ x == ρ u) = _
  congr 1
  rw [Bool.eq_iff_iff, beq_iff_eq, beq_iff_eq]
  exact ⟨fun h => hi h, fun h => h ▸ rfl⟩

theorem tour_tracks (hρ : Neutral env o ρ) (hf : env.cfg.hasFeature "fstring-self-doc" = false) (n : Node) :
    Tracks ρ (tour env n) (tour (env.listing o) (n.renamed ρ)) := by
  refine .seq (visitNode_tracks hρ hf n).1 (.rd fun s lc t => ?_)
  rw [show (env.listing o).order (s.renamed ρ lc t).userDefs = (env.order s.userDefs).map ρ from hρ.order _]
  refine .eached _ fun u _ => .rd fun s lc t => ?_
  rw [show (s.renamed ρ lc t).modules.filter (· == ρ u) = _ from filter_renamed hρ.inj u s.modules id,
    show (s.renamed ρ lc t).members.filter (· == ρ u) = _ from filter_renamed hρ.inj u s.members id]
  refine .seq (.seq (.seq (.eached _ fun _ _ => .print ..) (.act fun s _ _ => ?_)) (.eached _ fun _ _ => .print ..)) (.act fun s _ _ => ?_)
  · simp only [S.renamed]
    rw [show (s.modules.map ρ).filter (· != ρ u) = _ from filter_renamed hρ.inj u s.modules not]
    rfl
  · simp only [S.renamed]
    rw [show (s.members.map ρ).filter (· != ρ u) = _ from filter_renamed hρ.inj u s.members not]
    rfl

/-! ### The minimum versions -/

/-- The same error, or the same versions. -/
def TwinsM (ρ : String → String) : Except Err (S × Req) → Except Err (S × Req) → Prop
  | .ok (t, m), .ok (t', m') => m' = m ∧ ∃ lc o, t' = t.renamed ρ lc o
  | .error e, .error e' => e = e'
  | _, _ => False

/-- Steps that do the same up to names, positions and output. -/
structure TracksM (ρ : String → String) (f f' : M) : Prop where
  run : ∀ s lc o m, TwinsM ρ (f (s, m)) (f' (s.renamed ρ lc o, m))

namespace TracksM
theorem pure : TracksM ρ (fun x => .ok x) (fun x => .ok x) := ⟨fun _ lc o _ => ⟨rfl, lc, o, rfl⟩⟩
theorem raise (x : Err) : TracksM ρ (fun _ => .error x) (fun _ => .error x) := ⟨fun _ _ _ _ => rfl⟩
theorem thenM {a a' b b' : M} (ha : TracksM ρ a a') (hb : TracksM ρ b b') : TracksM ρ (thenM a b) (Vermin.thenM a' b') := ⟨fun s lc o m => by
  have h := ha.run s lc o m
  unfold Vermin.thenM
  revert h
  cases a (s, m) with
  | ok t =>
    cases a' (s.renamed ρ lc o, m) with
    | ok t' =>
      obtain ⟨t, m⟩ := t
      obtain ⟨t', m'⟩ := t'
      rintro ⟨rfl, lc, o, rfl⟩
      exact hb.run t lc o _
    | error e => exact False.elim
  | error e =>
    cases a' (s.renamed ρ lc o, m) with
    | ok t' => exact False.elim
    | error e' => exact id⟩
theorem eachM {α : Type} {f f' : α → M} (h : ∀ x, TracksM ρ (f x) (f' x)) : ∀ l, TracksM ρ (eachM f l) (Vermin.eachM f' l)
  | [] => pure
  | x :: l => thenM (h x) (eachM h l)
theorem eachedM {α : Type} {p : α → α} {f f' : α → M} (h : ∀ x, TracksM ρ (f x) (f' (p x))) : ∀ l, TracksM ρ (Vermin.eachM f l) (Vermin.eachM f' (l.map p))
  | [] => pure
  | x :: l => thenM (h x) (eachedM h l)
theorem entity (r : Req) (info : Option String) (ent ent' : Ent) (hv : Bool) :
    TracksM ρ (addEntity env r info (if hv then some ent else none)) (addEntity (env.listing o) r info (if hv then some ent' else none)) := ⟨fun s lc t m => by
  have h : Tracks ρ (infoStep env r info (if hv then some ent else none)) (infoStep (env.listing o) r info (if hv then some ent' else none)) := by
    show Tracks ρ (V.lift (violates env (some r)) _) (V.lift (violates env (some r)) _)
    refine .lift fun _ => .when (.opt .skip fun i => .seq (.act fun _ _ _ => rfl) ?_)
    cases hv with
    | false => exact .skip
    | true => exact .print ..
  have := h.run s lc t
  unfold addEntity
  dsimp only
  revert this
  cases infoStep env r info (if hv then some ent else none) s with
  | ok u =>
    cases infoStep (env.listing o) r info (if hv then some ent' else none) (s.renamed ρ lc t) with
    | ok u' =>
      rintro ⟨lc, t, rfl⟩
      show TwinsM ρ _ (match combineVersions env.cfg.ignoreIncomp m r (some u.infoVersions) with | .ok m => _ | .error e => _)
      dsimp only
      cases combineVersions env.cfg.ignoreIncomp m r (some u.infoVersions) with
      | ok m => exact ⟨rfl, lc, t, rfl⟩
      | error e => rfl
    | error e => exact False.elim
  | error x =>
    cases infoStep (env.listing o) r info (if hv then some ent' else none) (s.renamed ρ lc t) with
    | ok u' => exact False.elim
    | error e' => exact id⟩
theorem rule (r : Option Req) (info : String) (ent ent' : Ent) : TracksM ρ (ruleM env r info ent) (ruleM (env.listing o) r info ent') := by
  cases r with
  | none => exact pure
  | some r => exact entity r (some info) ent ent' true
/-- An entity with a rule keeps its name. -/
theorem ruled {t : String → Option Req} (hi : ∀ {x y}, ρ x = ρ y → x = y) (ht : ∀ x r, t x = some r → ρ x = x) (pre post x : String) :
    TracksM ρ (ruleM env (t x) (quoted pre x post) (.name x)) (ruleM (env.listing o) (t (ρ x)) (quoted pre (ρ x) post) (.name (ρ x))) := by
  rw [table_renamed hi ht]
  cases h : t x with
  | none => exact pure
  | some r =>
    rw [ht x r h]
    exact rule ..
end TracksM

theorem encodingEntryM_tracks (c : Const) (x : EncKey × Req) : TracksM ρ (encodingEntryM env c x) (encodingEntryM (env.listing o) c x) := by
  cases c with
  | str n =>
    refine ⟨fun s lc t m => ?_⟩
    unfold encodingEntryM
    dsimp only
    split
    · exact (TracksM.entity x.2 _ (.name n) (.name n) true).run s lc t m
    · exact ⟨rfl, lc, t, rfl⟩
  | bytes t =>
    obtain ⟨k, r⟩ := x
    cases k with
    | text _ => exact .raise _
    | names _ => exact .pure
  | _ => exact .raise _

theorem kwargM_tracks (hρ : Neutral env o ρ) (k : String × Option String) :
    TracksM ρ (kwargM env k) (kwargM (env.listing o) (ρ k.1, k.2.map ρ)) := by
  obtain ⟨f, k⟩ := k
  have key : env.tables.kw (ρ f, k.map ρ) = env.tables.kw (f, k) := by
    cases h : env.tables.kw (f, k) with
    | some r => rw [(hρ.kw f k r h).1, (hρ.kw f k r h).2, h]
    | none =>
      cases h' : env.tables.kw (ρ f, k.map ρ) with
      | none => rfl
      | some r =>
        obtain ⟨h1, h2⟩ := hρ.kw _ _ r h'
        have h1 := hρ.inj h1
        have h2 : k.map ρ = k := by
          cases k with
          | none => rfl
          | some k => simp only [Option.map_some, Option.some.injEq] at h2 ⊢; exact hρ.inj h2
        rw [h1, h2, h] at h'
        cases h'
  unfold kwargM
  rw [show (env.listing o).tables.kw (ρ f, k.map ρ) = _ from key]
  cases h : env.tables.kw (f, k) with
  | none => exact .pure
  | some r =>
    dsimp only
    rw [(hρ.kw f k r h).1, (hρ.kw f k r h).2]
    exact .rule ..

theorem entitiesM_tracks (hρ : Neutral env o ρ) (s : S) (lc t) : TracksM ρ (entitiesM env s) (entitiesM (env.listing o) (s.renamed ρ lc t)) := by
  refine .thenM (.eachM (fun _ => .rule ..) _) (.thenM (.eachM (fun _ => .rule ..) _) (.thenM (.eachM (fun _ => .rule ..) _)
    (.thenM (.eachM (fun c => ?_) _) (.thenM (.eachM (fun c => .eachM (encodingEntryM_tracks c) _) _)
    (.thenM (.eachedM (fun x => .ruled hρ.inj hρ.mod "" _ x) _) (.thenM (.eachedM (fun x => .ruled hρ.inj hρ.mem "" _ x) _)
    (.thenM (.eachedM (kwargM_tracks hρ) _) (.eachedM (fun x => .ruled hρ.inj hρ.deco "" _ x) _))))))))
  cases c with
  | str n => exact .rule ..
  | _ => exact .pure

theorem minimumVersions_tracks (hρ : Neutral env o ρ) (s : S) (lc t) : TwinsM ρ (minimumVersions env s) (minimumVersions (env.listing o) (s.renamed ρ lc t)) := by
  have hp : TracksM ρ (printM env) (printM (env.listing o)) := ⟨fun s lc t m => by
    unfold printM
    dsimp only
    show TwinsM ρ (if s.has .printv3 then _ else _) (if s.has .printv3 then _ else _)
    cases s.has .printv3 with
    | false => exact ⟨rfl, lc, t, rfl⟩
    | true =>
      have h : Tracks ρ (vv env "print(expr)" (from23 0 0) .hide) (vv (env.listing o) "print(expr)" (from23 0 0) .hide) := .print ..
      have := h.run s lc t
      simp only [if_true]
      revert this
      cases (vv env "print(expr)" (from23 0 0) .hide : V) s with
      | ok u =>
        cases (vv (env.listing o) "print(expr)" (from23 0 0) .hide : V) (s.renamed ρ lc t) with
        | ok u' =>
          rintro ⟨lc, t, rfl⟩
          exact (TracksM.entity _ none (.name "") (.name "") false).run u lc t _
        | error e => exact False.elim
      | error x =>
        cases (vv (env.listing o) "print(expr)" (from23 0 0) .hide : V) (s.renamed ρ lc t) with
        | ok u' => exact False.elim
        | error e' => exact id⟩
  have hf : ∀ f, TracksM ρ (featureM env f) (featureM (env.listing o) f) := fun f => ⟨fun s lc t m => by
    show TwinsM ρ (if s.has f.flag then _ else _) (if s.has f.flag then _ else _)
    cases s.has f.flag with
    | false => exact ⟨rfl, lc, t, rfl⟩
    | true => exact (TracksM.entity f.req f.info (.name "") (.name "") false).run s lc t m⟩
  exact (TracksM.thenM hp (.thenM (.eachM hf _) ⟨fun s lc t m => (entitiesM_tracks hρ s lc t).run s lc t m⟩)).run s lc t Req.unknown

end Vermin
