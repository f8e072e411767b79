import Verif.Lemmas.Settled
import Verif.Spec.Records
/-
Directives, typecodes, arguments of functions that deal with encodings, and decorators: they are recorded.
-/
namespace Vermin
open Py V Spec

/-! ### Records -/

theorem record_more {r : Record} {s t : S} (h : More s t) (hr : r.In s) : r.In t := by
  cases r with
  | strftime d => exact h.strftime hr
  | bytes d => exact h.bytesDirs hr
  | typecode t => exact h.typecodes hr
  | errorHandler c => exact h.codecsErr hr
  | encoding c => exact h.codecsEnc hr
  | decorator u => exact h.decos hr

/-- Actions that leave what has been recorded -/
def Lasts (v : V) : Prop := ∀ s t, v s = .ok t → ∀ r : Record, r.In s → r.In t
theorem Growing.lasts {v : V} (h : Growing v) : Lasts v := fun s t ht _ => record_more (Rel.more.grow (h s t ht))
theorem lasts_more {f : S → S} (h : ∀ s, More s (f s)) : Lasts (upd f) := fun s t ht _ hr => by rw [upd_run ht]; exact record_more (h s) hr

/-- Running `v` at `n` records `r`, given what may be known there. -/
def Puts (env : Env) (P : Facts) (p n : Node) (r : Record) (v : V) : Prop := ∀ s t, Known env P p n s → v s = .ok t → r.In t

namespace Puts
variable {env : Env} {P : Facts} {p n : Node} {r : Record}

theorem fst {a b : V} (ha : Puts env P p n r a) (hb : Lasts b) : Puts env P p n r (a ;; b) := fun s t hl h => by
  obtain ⟨u, h1, h2⟩ := seq_run h
  exact hb u t h2 r (ha s u hl h1)
theorem snd {a b : V} (ha : Traced env P p n a) (hb : Puts env P p n r b) : Puts env P p n r (a ;; b) := fun s t hl h => by
  obtain ⟨u, h1, h2⟩ := seq_run h
  exact hb u t (ha s u hl h1).1 h2
theorem rd {g : S → V} (hg : ∀ s, Known env P p n s → Puts env P p n r (g s)) : Puts env P p n r (V.rd g) := fun s t hl h => hg s hl s t hl h
theorem gate {m : Node} {v : V} (hn : m.line ∉ env.noLines) (hv : Puts env P p n r v) : Puts env P p n r (gate env m v) := by
  unfold Vermin.gate
  rw [if_neg (by simpa [Env.isNoLine] using hn)]
  exact hv
theorem when {c : Bool} {v : V} (hc : c = true) (hv : Puts env P p n r v) : Puts env P p n r (V.when c v) := by subst hc; exact hv
theorem pos {c : Prop} [Decidable c] {a b : V} (hc : c) (h : Puts env P p n r a) : Puts env P p n r (if c then a else b) := by rw [if_pos hc]; exact h
theorem neg {c : Prop} [Decidable c] {a b : V} (hc : ¬ c) (h : Puts env P p n r b) : Puts env P p n r (if c then a else b) := by rw [if_neg hc]; exact h
theorem opt {α : Type} {x : Option α} {y : α} {a : V} {k : α → V} (hx : x = some y) (hk : Puts env P p n r (k y)) : Puts env P p n r (V.opt x a k) := by
  subst hx; exact hk
theorem lift {α : Type} {x : Except Err α} {y : α} {k : α → V} (hx : x = .ok y) (hk : Puts env P p n r (k y)) : Puts env P p n r (V.lift x k) := by
  subst hx; exact hk
theorem each {α : Type} {f : α → V} {l : List α} {x : α} (hx : x ∈ l) (hf : Puts env P p n r (f x)) (ht : ∀ y ∈ l, Traced env P p n (f y))
    (hg : ∀ y ∈ l, Growing (f y)) : Puts env P p n r (V.each f l) := by
  induction l with
  | nil => cases hx
  | cons y l ih =>
    rcases List.mem_cons.mp hx with rfl | hx
    · exact .fst hf (Growing.each fun z hz => hg z (.tail _ hz)).lasts
    · exact .snd (ht y (.head _)) (ih hx (fun z hz => ht z (.tail _ hz)) fun z hz => hg z (.tail _ hz))
end Puts

/-- Running `v` records `r`, whatever is known. -/
def Notes (r : Record) (v : V) : Prop := ∀ s t, v s = .ok t → r.In t

namespace Notes
variable {r : Record}
theorem puts {env : Env} {P : Facts} {p n : Node} {v : V} (h : Notes r v) : Puts env P p n r v := fun s t _ => h s t
theorem fst {a b : V} (ha : Notes r a) (hb : Growing b) : Notes r (a ;; b) := fun s t h => by
  obtain ⟨u, h1, h2⟩ := seq_run h
  exact hb.lasts u t h2 r (ha s u h1)
theorem snd {a b : V} (hb : Notes r b) : Notes r (a ;; b) := fun s t h => by
  obtain ⟨u, h1, h2⟩ := seq_run h
  exact hb u t h2
theorem when {c : Bool} {v : V} (hc : c = true) (hv : Notes r v) : Notes r (V.when c v) := by subst hc; exact hv
theorem opt {α : Type} {x : Option α} {y : α} {a : V} {k : α → V} (hx : x = some y) (hk : Notes r (k y)) : Notes r (V.opt x a k) := by subst hx; exact hk
theorem each {α : Type} {f : α → V} {l : List α} {x : α} (hx : x ∈ l) (hf : Notes r (f x)) (hg : ∀ y ∈ l, Growing (f y)) : Notes r (V.each f l) := by
  induction l with
  | nil => cases hx
  | cons y l ih =>
    rcases List.mem_cons.mp hx with rfl | hx
    · exact .fst hf (Growing.each fun z hz => hg z (.tail _ hz))
    · exact .snd (ih hx fun z hz => hg z (.tail _ hz))
end Notes

section
variable {env : Env} {P : Facts} {p n : Node}

theorem adds_strftime (d : String) (l : Nat) : Notes (.strftime d) (addStrftime d l) := fun s t h => by
  rw [upd_run h]
  exact List.mem_append_right _ (.head _)
theorem adds_bytes (d : String) (l : Nat) : Notes (.bytes d) (addBytesDir d l) := fun s t h => by
  rw [upd_run h]
  exact List.mem_append_right _ (.head _)
theorem adds_typecode (x : String) (l c : Nat) : Notes (.typecode x) (addTypecode x l c) := fun s t h => by
  unfold addTypecode V.rd at h
  cases hc : s.typecodes.contains x with
  | true =>
    simp only [hc, Bool.not_true, V.when, Bool.false_eq_true, if_false, V.skip] at h
    injection h with h
    subst h
    exact List.contains_iff_mem.mp hc
  | false =>
    simp only [hc, Bool.not_false, V.when, if_true] at h
    rw [upd_run h]
    exact List.mem_append_right _ (.head _)
theorem adds_errorHandler {c : Const} (l : Nat) (he : env.cfg.isExcludedErrorHandler c.text = false) : Notes (.errorHandler c) (addErrorHandler env c l) := fun s t h => by
  unfold addErrorHandler at h
  rw [he, if_neg nofun] at h
  rw [upd_run h]
  exact List.mem_append_right _ (.head _)
theorem adds_encoding {c : Const} (l : Nat) (he : env.cfg.isExcludedEncoding c.text = false) : Notes (.encoding c) (addEncoding env c l) := fun s t h => by
  unfold addEncoding at h
  rw [he, if_neg nofun] at h
  rw [upd_run h]
  exact List.mem_append_right _ (.head _)

theorem constVal_of {a : Node} {c : Const} (h : a.kind = .const c) : a.constVal = some c := by unfold Node.constVal; rw [h]

/-! #### Encodings -/

theorem kwArg_of {k : Node} {x : Option String} (h : k.kind = .keyword x) : kwArg k = x := by unfold kwArg; rw [h]
theorem kwConst_of {k v : Node} {c : Const} (h : k.field .value = some v) (hv : v.kind = .const c) : kwConst k = some c := by
  unfold kwConst; rw [h]; exact constVal_of hv

theorem growing_errorKws : ∀ kw ∈ n.fields .keywords,
    Growing (V.when (decide (kwArg kw = some "errors")) (V.opt (kwConst kw) V.skip fun c => addErrorHandler env c n.line)) := fun _ _ =>
  .when (.optSkip fun _ _ => (closed_growing env n).errorHandler _ trivial)
theorem growing_encodingKw : ∀ kw ∈ n.fields .keywords, Growing (V.when (isEncodingKw kw) (V.opt (kwConst kw) V.skip fun c => addEncoding env c n.line)) := fun _ _ =>
  .when (.optSkip fun _ _ => (closed_growing env n).encoding _ trivial)
theorem growing_encodingIdx (i : Nat) : Growing (addCodecsEncodingIdx env n i) := by
  have hc := closed_growing env n
  have hkw : Growing (addCodecsEncodingKws env n) := .each growing_encodingKw
  exact .opt hkw fun c _ => .ite (hc.encoding _ trivial) (.seq (hc.encoding _ trivial) hkw)
theorem growing_encodings (g : String) : Growing (addCodecsEncoding env g n) := .optSkip fun _ _ => .each fun _ _ => growing_encodingIdx _

theorem adds_errorAt {g : String} {i : Nat} {a : Node} {c : Const} (hi : env.tables.errorsIndex g = some i) (ha : (n.fields .args)[i]? = some a)
    (hc : a.kind = .const c) (he : env.cfg.isExcludedErrorHandler c.text = false) : Notes (.errorHandler c) (checkCodecsFunction env g n) :=
  .fst (.opt hi (.fst (.opt (by rw [ha]; exact constVal_of hc) (adds_errorHandler _ he)) (.each growing_errorKws))) (growing_encodings g)
theorem adds_errors {g : String} {i : Nat} {c : Const} (hi : env.tables.errorsIndex g = some i) (hc : ConstKeyword n ["errors"] c)
    (he : env.cfg.isExcludedErrorHandler c.text = false) : Notes (.errorHandler c) (checkCodecsFunction env g n) := by
  obtain ⟨k, hk, ⟨x, hx, hkx⟩, v, hv, hvc⟩ := hc
  have hx := List.mem_singleton.mp hx
  subst hx
  exact .fst (.opt hi (.snd (.each hk (.when (by rw [kwArg_of hkx]; rfl) (.opt (kwConst_of hv hvc) (adds_errorHandler _ he))) growing_errorKws))) (growing_encodings g)

theorem adds_encodingAt {g : String} {is : List Nat} {i : Nat} {a : Node} {c : Const} (his : env.tables.encodingsIndices g = some is) (hi : i ∈ is)
    (ha : (n.fields .args)[i]? = some a) (hc : a.kind = .const c) (he : env.cfg.isExcludedEncoding c.text = false) :
    Notes (.encoding c) (checkCodecsFunction env g n) := by
  refine .snd (.opt his (.each hi (.opt (by rw [ha]; exact constVal_of hc) ?_) fun _ _ => growing_encodingIdx _))
  rw [he]
  exact .fst (adds_encoding _ he) (.each growing_encodingKw)
theorem adds_encodingKw {g : String} {is : List Nat} {i : Nat} {c : Const} (his : env.tables.encodingsIndices g = some is) (hi : i ∈ is)
    (hx : ∀ a c', (n.fields .args)[i]? = some a → a.kind = .const c' → env.cfg.isExcludedEncoding c'.text = false)
    (hc : ConstKeyword n ["encoding", "data_encoding", "file_encoding"] c) (he : env.cfg.isExcludedEncoding c.text = false) :
    Notes (.encoding c) (checkCodecsFunction env g n) := by
  obtain ⟨k, hk, ⟨x, hx', hkx⟩, v, hv, hvc⟩ := hc
  have hkw : Notes (.encoding c) (addCodecsEncodingKws env n) := by
    refine .each hk (.when ?_ (.opt (kwConst_of hv hvc) (adds_encoding _ he))) growing_encodingKw
    unfold isEncodingKw
    rw [kwArg_of hkx]
    exact List.contains_iff_mem.mpr hx'
  refine .snd (.opt his (.each hi ?_ fun _ _ => growing_encodingIdx _))
  unfold addCodecsEncodingIdx
  cases ha : ((n.fields .args)[i]?).bind Node.constVal with
  | none => exact hkw
  | some c' =>
    obtain ⟨a, ha, hc'⟩ := Option.bind_eq_some_iff.mp ha
    show Notes _ (if _ then _ else _)
    rw [hx a c' ha (Acting.constVal_iff hc')]
    exact .snd hkw

/-! #### Calls -/

/-- A call of a name -/
theorem nameCall_puts (hP : Keeps env p P) {r : Record} {e : Node} {x : String} (hk : n.kind = .call) (he : n.field .func = some e) (hx : IsName e x)
    (hm : n.line ∉ env.noLines) (h : Puts env P p n r (callCodecs env n x) ∨ Puts env P p n r (callSpecial env n x)) : Puts env P p n r (visit env n) := by
  obtain ⟨c, hc⟩ := hx
  have hf : CallsName n x := ⟨hk, by rw [he]; exact nameId_of hc⟩
  have hg := closed_growing env n
  have ht := closed_traced env P p n hP
  have hA : ∀ ev, EmitsIn env (Known env P p n) n ev → At env p n ev := fun _ h => emitsIn_mono (fun _ h => h.toLearnt) h
  rw [visitMk env n]
  unfold visitAlg
  simp only [hk]
  rw [Acting.visitCall_name env _ he hc]
  refine .gate hm (.fst (fun s t hl h' => ?_) growing_pop.lasts)
  obtain ⟨u, h1, h2⟩ := seq_run h'
  have h1 := upd_run h1
  subst h1
  have hmem : Traced env P p n (addMember env x (some n.line) (some n.col)) := ht.member _ _ (.inr (.inr (.inl hf)))
  refine Puts.fst (.fst ?_ ?_) ?_ _ t (learnt_push hl ⟨s, hl.toLearnt, hk, e, he, .inl ⟨c, hc⟩⟩) h2
  · rcases h with h | h
    · exact .fst (.snd hmem h) (hg.callSpecial (I := fun _ => True) (fun _ _ => trivial) hf).lasts
    · exact .snd (.seq hmem (ht.callCodecs hA hf)) h
  · exact (hg.checkUnpacking (I := fun _ => True) fun _ _ => trivial).lasts
  · exact (gen_growing env n).lasts

/-- A call of an attribute -/
theorem attrCall_puts (hP : Keeps env p P) {r : Record} {e : Node} {b g : String} (hk : n.kind = .call) (he : n.field .func = some e) (hb : e.kind = .attribute b)
    (hm : n.line ∉ env.noLines) (hg' : ∀ s, Known env P p n s → dottedAttr s.moduleAs e = .ok g)
    (h : Notes r (checkCodecsFunction env g n) ∨ (g = "array.array" ∧ Notes r (typecodeArgs n 12))) : Puts env P p n r (visit env n) := by
  have hg := closed_growing env n
  have ht := closed_traced env P p n hP
  have hA : ∀ ev, EmitsIn env (Known env P p n) n ev → At env p n ev := fun _ h => emitsIn_mono (fun _ h => h.toLearnt) h
  rw [visitMk env n]
  unfold visitAlg
  simp only [hk]
  rw [Acting.visitCall_attr env _ he hb]
  refine .gate hm (.snd (ht.callAttrSpecial hA hk he hb) (.rd fun s hs => .lift (hg' s hs) (.fst (Notes.puts (.snd ?_)) growing_pop.lasts)))
  refine .fst (.fst ?_ (hg.checkUnpacking (I := fun _ => True) fun _ _ => trivial)) (gen_growing env n)
  rcases h with h | ⟨rfl, h⟩
  · exact .fst h (.when (growing_typecodeArgs _))
  · exact .snd (.when rfl h)

theorem attrSpecial_adds {r : Record} {e : Node} {b : String} (hk : n.kind = .call) (he : n.field .func = some e) (hb : e.kind = .attribute b)
    (hm : n.line ∉ env.noLines) (h : Notes r (callAttrSpecial env n e b)) : Puts env P p n r (visit env n) := by
  have hg := closed_growing env n
  rw [visitMk env n]
  unfold visitAlg
  simp only [hk]
  rw [Acting.visitCall_attr env _ he hb]
  refine .gate hm (Notes.puts (.fst h (.rd fun s => .lift fun g => .seq (.seq (growing_push _) ?_) growing_pop)))
  exact .seq (.seq (.seq (growing_checkCodecsFunction _) (.when (growing_typecodeArgs _))) (hg.checkUnpacking (I := fun _ => True) fun _ _ => trivial)) (gen_growing env n)

theorem growing_strftimeArg (c : Const) : Growing (strftimeArg n c) := by
  unfold strftimeArg
  split
  · exact .each fun _ _ => growing_upd fun s => { Grows.refl s with strftime := fun _ h => List.mem_append_left _ h }
  · exact fun s t h => by cases h

theorem typecodes_add {a : Node} {t : String} (ha : a ∈ n.fields .args) (hc : a.kind = .const (.str t)) (off : Nat) : Notes (.typecode t) (typecodeArgs n off) :=
  .each ha (.opt (strVal_of hc) (adds_typecode _ _ _)) fun _ _ => .optSkip fun _ _ =>
    .rd fun s => .when (growing_upd fun s => { Grows.refl s with typecodes := fun _ h => List.mem_append_left _ h })

/-- A call of a function that deals with encodings -/
theorem codecs_puts {l : List Node} {r : Record} {f : Node} {g : String} (hk : n.kind = .call) (hf : n.field .func = some f) (hm : n.line ∉ env.noLines)
    (hs : Stands env p l f g) (h : Notes r (checkCodecsFunction env g n)) : Puts env (FactsAt env p l) p n r (visit env n) := by
  have hP := keeps_facts env p l
  cases hs with
  | chain hc hu =>
    obtain ⟨b, hb⟩ := chain_attr hc
    exact attrCall_puts hP hk hf hb hm (fun s hs => by rw [chain_dotted hc, unrenamed hu hs.renames]) (.inl h)
  | renamed hc hr =>
    obtain ⟨b, hb⟩ := chain_attr hc
    refine attrCall_puts hP hk hf hb hm (fun s hs => ?_) (.inl h)
    rw [chain_dotted hc]
    unfold resolveModuleName
    rw [hs.known.renames _ _ hr]
    rfl
  | origin hx ho =>
    refine nameCall_puts hP hk hf hx hm (.inl (.rd fun s hs => ?_))
    rw [hs.known.origins _ _ ho]
    exact h.puts
  | name hx hr hn hy =>
    refine nameCall_puts hP hk hf hx hm (.inl (.rd fun s hs => ?_))
    rw [no_origin hn hy hs, hs.known.renames _ _ hr]
    exact h.puts

theorem array_name {m x : String} (hx : Identifier x) (h : m ++ "." ++ x = "array.array") : x = "array" := by
  have h := congrArg String.toList h
  rw [String.toList_append, String.toList_append, List.append_assoc] at h
  have h' : m.toList ++ '.' :: x.toList = "array".toList ++ '.' :: "array".toList := h
  rcases List.append_eq_append_iff.mp h' with ⟨y, h1, h2⟩ | ⟨y, h1, h2⟩
  · cases y with
    | nil => injection h2 with _ h2; exact String.toList_inj.mp h2
    | cons c y =>
      injection h2 with _ h2
      exact absurd (by rw [h2]; simp) hx.2
  · cases y with
    | nil => injection h2 with _ h2; exact String.toList_inj.mp h2.symm
    | cons c y =>
      injection h2 with _ h2
      have : '.' ∈ "array".toList := by rw [h2]; simp
      exact absurd this (by decide)

theorem typecode_puts {l : List Node} {f a : Node} {t : String} (hk : n.kind = .call) (hf : n.field .func = some f) (hm : n.line ∉ env.noLines)
    (hs : Stands env p l f "array.array") (hp : ¬ IsName f "print") (ha : a ∈ n.fields .args) (hc : a.kind = .const (.str t)) :
    Puts env (FactsAt env p l) p n (.typecode t) (visit env n) := by
  have hP := keeps_facts env p l
  have h := fun off => typecodes_add ha hc off
  generalize hg : "array.array" = g at hs
  cases hs with
  | chain hc hu =>
    obtain ⟨b, hb⟩ := chain_attr hc
    exact attrCall_puts hP hk hf hb hm (fun s hs => by rw [chain_dotted hc, unrenamed hu hs.renames]) (.inr ⟨hg.symm, h _⟩)
  | renamed hc hr =>
    obtain ⟨b, hb⟩ := chain_attr hc
    refine attrCall_puts hP hk hf hb hm (fun s hs => ?_) (.inr ⟨hg.symm, h _⟩)
    rw [chain_dotted hc]
    unfold resolveModuleName
    rw [hs.known.renames _ _ hr]
    rfl
  | origin hx ho =>
    have := array_name ho.1 hg.symm
    subst this
    exact nameCall_puts hP hk hf hx hm (.inr (.rd fun s hs => .neg (by decide) (.pos (.inl rfl) (h _).puts)))
  | name hx hr hn hy =>
    subst hg
    exact nameCall_puts hP hk hf hx hm (.inr (.rd fun s hs => .neg (fun h => hp (h ▸ hx)) (.pos (.inr (hs.known.renames _ _ hr)) (h _).puts)))

/-! #### Decorators -/

theorem deco_puts {u : String} (hu : Undefined p u) (he : env.cfg.isExcluded u = false) (hd : (env.tables.deco u).isSome = true) (l : Nat) :
    Puts env P p n (.decorator u) (addUserFuncDeco env u l) := fun s t hl h => by
  unfold addUserFuncDeco V.rd at h
  simp only [not_userDef hl hu, he, hd, Bool.false_eq_true, if_false, V.when, if_true] at h
  rw [upd_run h]
  exact List.mem_append_right _ (.head _)

theorem traced_deco (hP : Keeps env p P) (hn : IsFunction n) {d : Node} (hd : d ∈ n.fields .decoratorList) :
    Traced env P p n (gate env d (V.rd fun s => V.lift (nameOrAttr s d) fun name =>
      V.opt name V.skip fun name => addUserFuncDeco env (decoName s name) d.line)) := by
  have ht := closed_traced env P p n hP
  have hA : ∀ ev, EmitsIn env (Known env P p n) n ev → At env p n ev := fun _ h => emitsIn_mono (fun _ h => h.toLearnt) h
  unfold gate
  split
  · exact .skip
  · rename_i hl
    refine .rd fun s hs => ?_
    cases hx : nameOrAttr s d with
    | error e => intro s t _ h; cases h
    | ok o =>
      cases o with
      | none => exact .skip
      | some x =>
        refine ht.deco _ (hA _ ⟨hn, d, hd, by simpa [Env.isNoLine] using hl, s, x, hs, nameOrAttr_spells hx, ?_⟩)
        unfold decoName
        cases h1 : Dict.get? s.importMemMod x with
        | some m => exact .inr (.inl ⟨m, h1, dotted_pair m x⟩)
        | none =>
          cases h2 : Dict.get? s.moduleAs x with
          | some m => exact .inr (.inr h2)
          | none => exact .inl rfl
theorem growing_deco (d : Node) : Growing (gate env d (V.rd fun s => V.lift (nameOrAttr s d) fun name =>
      V.opt name V.skip fun name => addUserFuncDeco env (decoName s name) d.line)) := by
  unfold gate
  exact .ite .skip (.rd fun s => .lift fun _ => .optSkip fun _ _ => (closed_growing env d).deco _ trivial)

theorem decorator_puts (hP : Keeps env p P) {u : String} {d : Node} (hn : IsFunction n) (hd : d ∈ n.fields .decoratorList) (hdl : d.line ∉ env.noLines)
    (hm : n.line ∉ env.noLines) (hname : ∀ s, Known env P p n s → ∃ x, nameOrAttr s d = .ok (some x) ∧ decoName s x = u)
    (hu : Undefined p u) (he : env.cfg.isExcluded u = false) (htab : (env.tables.deco u).isSome = true) :
    Puts env P p n (.decorator u) (visit env n) := by
  have hg := closed_growing env n
  have ht := closed_traced env P p n hP
  have hA : ∀ ev, EmitsIn env (Known env P p n) n ev → At env p n ev := fun _ h => emitsIn_mono (fun _ h => h.toLearnt) h
  have hA' : ∀ ev, Emits env n ev → True := fun _ _ => trivial
  have hdec : Puts env P p n (.decorator u) (funcDecos env n) := by
    obtain ⟨l, hl⟩ := decoLine_of hd hdl
    refine .opt hl (.snd (.seq (.seq (.flag _) (.print _ _ _ _ _ _)) (ht.checkRelaxed hA (.inl hn))) ?_)
    refine .each hd (.gate hdl (.rd fun s hs => ?_)) (fun y hy => traced_deco hP hn hy) (fun y _ => growing_deco y)
    obtain ⟨x, hx, hxu⟩ := hname s hs
    refine .lift hx (.opt rfl ?_)
    rw [hxu]
    exact deco_puts hu he htab _
  have hfun : ∀ name, DefinesFunction n name → Puts env P p n (.decorator u) (handleFunctionDef env n name (visitKids env n.kids)) := fun name hn' =>
    .fst (.fst (.snd (.seq (ht.userDef (hA _ (.inl hn'))) (ht.dirFuncs hA hn')) hdec)
      (growing_inScope (hg.generic _ (Kids.dropReturns (d := env.display) (kids_growing env n)))).lasts) (hg.funcAnns hA' hn).lasts
  rw [visitMk env n]
  unfold visitAlg
  obtain ⟨name, hk | hk⟩ := id hn
  · simp only [hk]
    exact .gate hm (.rd fun s _ => .fst (hfun name (.inl hk)) (lasts_more fun s => more_counts s _ _))
  · simp only [hk]
    exact .gate hm (.rd fun s _ => .fst (.fst (.fst (hfun name (.inr hk)) Growing.found.lasts) (Growing.rd fun s' => .when .found).lasts)
      (lasts_more fun s => more_counts s _ _))

/-! #### All together -/

theorem bytes_puts {t : String} {d : Char} (hk : n.kind = .const (.bytes t)) (hd : Directive t.toList d) : Puts env P p n (.bytes (String.ofList [d])) (visit env n) := by
  rw [visitMk env n]
  unfold visitAlg
  simp only [hk]
  refine Notes.puts (.snd (.each (mem_directives.mpr ⟨d, rfl, hd⟩) (adds_bytes _ _) fun _ _ => ?_))
  exact growing_upd fun s => { Grows.refl s with bytesDirs := fun _ h => List.mem_append_left _ h }

theorem gives_puts {l : List Node} {r : Record} (h : Gives env p l n r) (hm : ¬ Marked env n) : Puts env (FactsAt env p l) p n r (visit env n) := by
  have hP := keeps_facts env p l
  have hline : Markable n.kind → n.line ∉ env.noLines := fun h1 h2 => hm ⟨h1, h2⟩
  have hfun : IsFunction n → n.line ∉ env.noLines := fun ⟨_, h⟩ => hline (by rcases h with h | h <;> rw [h] <;> trivial)
  cases h with
  | @strftime f a t d hk hf hfk ha hc hd =>
    have hb : ∃ b, f.kind = .attribute b ∧ (b = "strftime" ∨ b = "strptime") := hfk.elim (fun h => ⟨_, h, .inl rfl⟩) fun h => ⟨_, h, .inr rfl⟩
    obtain ⟨b, hb, hb'⟩ := hb
    refine attrSpecial_adds hk hf hb (hline (by rw [hk]; trivial)) ?_
    unfold callAttrSpecial
    rw [if_neg (by rcases hb' with rfl | rfl <;> decide)]
    refine .when (decide_eq_true hb') (.each ha (.opt (constVal_of hc) ?_) fun _ _ => .optSkip fun _ _ => growing_strftimeArg _)
    refine .each (mem_directives.mpr ⟨d, rfl, hd⟩) (adds_strftime _ _) fun _ _ => ?_
    exact growing_upd fun s => { Grows.refl s with strftime := fun _ h => List.mem_append_left _ h }
  | bytes hk hd => exact bytes_puts hk hd
  | array hn ha hc =>
    obtain ⟨hk, hf⟩ := hn
    obtain ⟨e, he, hx⟩ := Option.bind_eq_some_iff.mp hf
    obtain ⟨c, hx⟩ := Acting.nameId_iff hx
    exact nameCall_puts hP hk he ⟨c, hx⟩ (hline (by rw [hk]; trivial)) (.inr (.rd fun s hs => .neg (by decide) (.pos (.inl rfl) (typecodes_add ha hc _).puts)))
  | typecode hk hf hs hp ha hc => exact typecode_puts hk hf (hline (by rw [hk]; trivial)) hs hp ha hc
  | errorHandler hk hf hs hi ha hc he => exact codecs_puts hk hf (hline (by rw [hk]; trivial)) hs (adds_errorAt hi ha hc he)
  | errors hk hf hs hi hc he => exact codecs_puts hk hf (hline (by rw [hk]; trivial)) hs (adds_errors hi hc he)
  | encoding hk hf hs his hi ha hc he => exact codecs_puts hk hf (hline (by rw [hk]; trivial)) hs (adds_encodingAt his hi ha hc he)
  | encodingKeyword hk hf hs his hi hx hc he => exact codecs_puts hk hf (hline (by rw [hk]; trivial)) hs (adds_encodingKw his hi hx hc he)
  | @decorator d u hn hd hdl hs hc hu0 hu he ht =>
    refine decorator_puts hP hn hd hdl (hfun hn) (fun s hk => ?_) hu he ht
    have hattr : ∀ {a : String} {bs : List String}, Chain d a bs → dottedText (resolveModuleName s.moduleAs a) bs = u →
        ∃ x, nameOrAttr s d = .ok (some x) ∧ decoName s x = u := by
      intro a bs hch hx
      obtain ⟨b, hb⟩ := chain_attr hch
      obtain ⟨h1, h2⟩ := hc ⟨b, hb⟩
      refine ⟨u, ?_, ?_⟩
      · unfold nameOrAttr
        simp only [hb, chain_dotted hch, hx]
      · unfold decoName
        rw [no_origin h1 hu0 hk, get_unrenamed h2 hk]
        rfl
    have hnm : ∀ {x : String}, IsName d x → decoName s x = u → ∃ x, nameOrAttr s d = .ok (some x) ∧ decoName s x = u := by
      rintro x ⟨c, hc⟩ hx
      refine ⟨x, ?_, hx⟩
      unfold nameOrAttr
      simp only [hc]
    cases hs with
    | chain hch hun => exact hattr hch (by rw [unrenamed hun hk.renames])
    | renamed hch hr =>
      refine hattr hch ?_
      unfold resolveModuleName
      rw [hk.known.renames _ _ hr]
      rfl
    | origin hx ho =>
      refine hnm hx ?_
      unfold decoName
      rw [hk.known.origins _ _ ho]
      exact dotted_two _ _
    | name hx hr hn hy =>
      refine hnm hx ?_
      unfold decoName
      rw [no_origin hn hy hk, hk.known.renames _ _ hr]
      rfl
  | @decoratorName d x hn hd hdl hx h1 h2 hx0 hu he ht =>
    refine decorator_puts hP hn hd hdl (hfun hn) (fun s hk => ⟨x, ?_, ?_⟩) hu he ht
    · obtain ⟨c, hc⟩ := hx
      unfold nameOrAttr
      simp only [hc]
    · unfold decoName
      rw [no_origin h1 hx0 hk, get_unrenamed h2 hk]
      rfl

/-- What gives rise to a record is recorded. -/
theorem gives_recorded {l₁ l₂ : List Node} {k : Node} (hk : p.kind = .module) (hks : p.kids = l₁ ++ k :: l₂) (hr : Seen env p n k) (hm : ¬ Marked env n) {r : Record}
    (h : Gives env p l₁ n r) {t : S} (hv : visit env p S.init = .ok t) : r.In t := by
  obtain ⟨a, b, h1, _, h2, h3⟩ := place_run hk hks hv
  obtain ⟨c, d, _, h5, h6, h7⟩ := seen_learnt (keeps_facts env p l₁) hr h1 h2
  exact record_more h3 (record_more h7 (gives_puts h hm c d h5 h6))
end

end Vermin
