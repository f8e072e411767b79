import Verif.Lemmas.Traversal
import Verif.Lemmas.Dicts
import Verif.Lemmas.Chars
/-
The traversal principle for the remaining methods, and for the whole visit.
-/
namespace Vermin
open Py V Spec

/-! ### Tests on nodes -/

theorem mem_takeWhile_holds {α : Type} {p : α → Bool} {x : α} : ∀ {l : List α}, x ∈ l.takeWhile p → p x = true
  | [], h => by cases h
  | y :: l, h => by
    rw [List.takeWhile_cons] at h
    split at h
    · rename_i hy
      rcases List.mem_cons.mp h with rfl | h
      · exact hy
      · exact mem_takeWhile_holds h
    · cases h


theorem isDict_like {res : Dict String String} {n : Node} (h : isDict res n = .ok true) : DictLike n := by
  cases n with
  | mk i ks =>
    unfold isDict dictInfo at h
    replace h : isDictStep res (.mk i ks) (dictInfos res ks) = .ok true := h
    unfold isDictStep at h
    split at h
    · rename_i l hk; exact .inl ⟨l, hk⟩
    · rename_i x c hk; exact .inr (.inl ⟨x, c, hk⟩)
    · rename_i hk; exact .inr (.inr (.inl hk))
    · rename_i hk; exact .inr (.inr (.inr (.inl hk)))
    · cases h

theorem resolvesTo_ok (s : S) (ts : List String) (n : Node) : ∃ b, resolvesTo s ts n = .ok b ∧ (b = true → DictLike n) := by
  unfold resolvesTo resolveFullName plainName
  cases hk : n.kind with
  | name id c => exact ⟨_, rfl, fun _ => .inr (.inl ⟨id, c, hk⟩)⟩
  | call =>
    cases (n.field .func).bind Node.nameId with
    | none => exact ⟨_, rfl, nofun⟩
    | some x => exact ⟨_, rfl, fun _ => .inr (.inr (.inl hk))⟩
  | «attribute» a =>
    obtain ⟨d, hd⟩ := dottedAttr_ok (ms := s.moduleAs) hk
    simp only [hd]
    exact ⟨_, rfl, fun _ => .inr (.inr (.inr (.inr ⟨a, hk⟩)))⟩
  | _ => exact ⟨_, rfl, nofun⟩

theorem resolvesTo_refers {s : S} {ts : List String} {n : Node} (h : resolvesTo s ts n = .ok true) :
    ∃ m ∈ ts, RefersTo s.moduleAs s.importMemMod s.nameRes n m := by
  have key : ∀ x, resolveName s x ∈ ts → (IsName n x ∨ CallsName n x ∨ ((∃ a, n.kind = .attribute a) ∧ ∃ full, Reads s.moduleAs n full ∧ x = fullText full)) →
      ∃ m ∈ ts, RefersTo s.moduleAs s.importMemMod s.nameRes n m := by
    intro x hx hn
    refine ⟨_, hx, x, (Dict.get? s.nameRes x).getD x, hn, ?_, ?_⟩
    · cases Dict.get? s.nameRes x with
      | none => exact .inr ⟨rfl, rfl⟩
      | some y => exact .inl rfl
    · unfold resolveName
      dsimp only
      cases h1 : Dict.get? s.moduleAs ((Dict.get? s.nameRes x).getD x) with
      | some m => exact .inl rfl
      | none =>
        cases h2 : Dict.get? s.importMemMod ((Dict.get? s.nameRes x).getD x) with
        | some m => exact .inr (.inl ⟨m, rfl, dotted_pair ..⟩)
        | none => exact .inr (.inr rfl)
  unfold resolvesTo resolveFullName plainName at h
  cases hk : n.kind with
  | name id c =>
    rw [hk] at h
    injection h with h
    exact key id (List.contains_iff_mem.mp h) (.inl ⟨c, hk⟩)
  | call =>
    rw [hk] at h
    cases hx : (n.field .func).bind Node.nameId with
    | none => rw [hx] at h; cases h
    | some x =>
      rw [hx] at h
      injection h with h
      exact key x (List.contains_iff_mem.mp h) (.inr (.inl ⟨hk, hx⟩))
  | «attribute» a =>
    obtain ⟨d, hd⟩ := dottedAttr_ok (ms := s.moduleAs) hk
    rw [hk] at h
    simp only [hd] at h
    injection h with h
    exact key d (List.contains_iff_mem.mp h) (.inr (.inr ⟨⟨a, hk⟩, dottedAttr_reads hd⟩))
  | _ => rw [hk] at h; cases h

theorem isNoneNode_iff {n : Node} (h : isNoneNode n = true) : n.kind = .const .none ∨ IsName n "None" := by
  unfold isNoneNode at h
  split at h
  · rename_i id c hk; exact .inr ⟨c, by rw [hk, of_decide_eq_true h]⟩
  · rename_i c hk; exact .inl (by rw [hk, of_decide_eq_true h])
  · cases h

theorem nameOrAttr_spells {s : S} {e : Node} {x : String} (hx : nameOrAttr s e = .ok (some x)) : Spells s.moduleAs e x := by
  unfold nameOrAttr at hx
  split at hx
  · rename_i id c hk; injection hx with hx; injection hx with hx; subst hx; exact .inl ⟨c, hk⟩
  · rename_i a hk
    split at hx
    · rename_i y hy; injection hx with hx; injection hx with hx; subst hx; exact .inr ⟨⟨a, hk⟩, dottedAttr_reads hy⟩
    · cases hx
  · cases hx

theorem has_get {α : Type} [DecidableEq α] {β : Type} {d : Dict α β} {x : α} (h : Dict.has d x = true) : ∃ v, Dict.get? d x = some v := by
  unfold Dict.has at h
  exact Option.isSome_iff_exists.mp h
theorem not_has_get {α : Type} [DecidableEq α] {β : Type} {d : Dict α β} {x : α} (h : Dict.has d x = false) : Dict.get? d x = none := by
  unfold Dict.has at h
  simpa using h

theorem maybeType_free {s : S} {x : String} (h : maybeType s x = true) : Free s x ∨ HasType s x := by
  unfold maybeType at h
  rcases Bool.or_eq_true_iff.mp h with h | h
  · simp only [Bool.and_eq_true, Bool.not_eq_true'] at h
    exact .inl ⟨not_has_get h.1, fun hm => by rw [List.contains_iff_mem.mpr hm] at h; cases h.2⟩
  · exact .inr (has_get h)

theorem isNoneOrName_operand {s : S} {n : Node} (h : isNoneOrName s n = .ok true) : TypeOperand s n := by
  unfold isNoneOrName at h
  split at h
  · rename_i hn
    rcases isNoneNode_iff hn with h | h
    · exact .inl h
    · exact .inr (.inl h)
  · split at h
    · rename_i x hx
      injection h with h
      exact .inr (.inr ⟨x, nameOrAttr_spells hx, maybeType_free h⟩)
    · cases h
    · cases h

theorem isUnionType_target {s : S} {n : Node} (h : isUnionType s n = .ok true) : TypeTarget s n := by
  unfold isUnionType at h
  split at h
  · rename_i x hx
    injection h with h
    refine ⟨x, nameOrAttr_spells hx, ?_⟩
    rcases Bool.or_eq_true_iff.mp h with h | h
    · rcases Bool.or_eq_true_iff.mp h with h | h
      · simp only [Bool.and_eq_true, Bool.not_eq_true'] at h
        exact .inl ⟨not_has_get h.1, fun hm => by rw [List.contains_iff_mem.mpr hm] at h; cases h.2⟩
      · split at h
        · rename_i ts hts; exact .inr (.inl ⟨ts, hts, of_decide_eq_true h⟩)
        · cases h
    · simp only [Bool.and_eq_true, Bool.not_eq_true'] at h
      exact .inr (.inr ⟨not_has_get h.1.1, has_get h.2⟩)
  · cases h
  · cases h

theorem bothOk_true {a b : Except Err Bool} (h : bothOk a b = .ok true) : a = .ok true ∧ b = .ok true := by
  unfold bothOk at h
  split at h
  · exact ⟨rfl, h⟩
  · cases h
  · cases h

theorem isNoneOrName_ok (s : S) (n : Node) : ∃ b, isNoneOrName s n = .ok b ∧ (b = true → TypeLike n) := by
  unfold isNoneOrName
  by_cases h : isNoneNode n = true
  · rw [if_pos h]
    refine ⟨_, rfl, fun _ => ?_⟩
    rcases isNoneNode_iff h with h | ⟨c, h⟩
    · exact .inr (.inr h)
    · exact .inl ⟨_, c, h⟩
  · rw [if_neg h]
    obtain ⟨o, ho, hk⟩ := nameOrAttr_ok s n
    rw [ho]
    cases o with
    | none => exact ⟨_, rfl, nofun⟩
    | some x =>
      refine ⟨_, rfl, fun _ => ?_⟩
      rcases hk x rfl with h | h
      · exact .inl h
      · exact .inr (.inl h)

theorem isUnionType_ok (s : S) (n : Node) : ∃ b, isUnionType s n = .ok b ∧ (b = true → TypeLike n) := by
  unfold isUnionType
  obtain ⟨o, ho, hk⟩ := nameOrAttr_ok s n
  rw [ho]
  cases o with
  | none => exact ⟨_, rfl, nofun⟩
  | some x =>
    refine ⟨_, rfl, fun _ => ?_⟩
    rcases hk x rfl with h | h
    · exact .inl h
    · exact .inr (.inl h)

theorem bothOk_ok {a b : Except Err Bool} {P R : Prop} (ha : ∃ x, a = .ok x ∧ (x = true → P)) (hb : ∃ x, b = .ok x ∧ (x = true → R)) :
    ∃ x, bothOk a b = .ok x ∧ (x = true → P ∧ R) := by
  obtain ⟨x, rfl, hx⟩ := ha
  obtain ⟨y, rfl, hy⟩ := hb
  cases x with
  | true => exact ⟨y, rfl, fun h => ⟨hx rfl, hy h⟩⟩
  | false => exact ⟨false, rfl, nofun⟩

theorem isDictUnion_spec (env : Env) (s : S) (l r : Node) :
    (∃ b, isDictUnion env s l r = .ok b ∧ (b = true → DictLike l ∧ DictLike r)) ∨
    ∃ e, isDictUnion env s l r = .error e ∧ (¬ Parsed l ∨ ¬ Parsed r) := by
  unfold isDictUnion
  cases hl : isDict s.nameRes l with
  | error e => exact .inr ⟨e, rfl, .inl (isDict_parsed hl)⟩
  | ok bl =>
    cases hr : isDict s.nameRes r with
    | error e => exact .inr ⟨e, rfl, .inr (isDict_parsed hr)⟩
    | ok br =>
      obtain ⟨x, hx, hx'⟩ := resolvesTo_ok s env.tables.dictUnion l
      obtain ⟨y, hy, hy'⟩ := resolvesTo_ok s env.tables.dictUnion r
      rw [hx, hy]
      refine .inl ⟨_, rfl, fun h => ?_⟩
      simp only [Bool.and_eq_true, Bool.or_eq_true] at h
      refine ⟨h.1.elim (fun h => isDict_like (by rw [hl, h])) hx', h.2.elim (fun h => isDict_like (by rw [hr, h])) hy'⟩

theorem isDictUnion_operands {env : Env} {s : S} {l r : Node} (h : isDictUnion env s l r = .ok true) :
    DictOperand env.tables.dictUnion s l ∧ DictOperand env.tables.dictUnion s r := by
  unfold isDictUnion at h
  cases h1 : isDict s.nameRes l with
  | error e => rw [h1] at h; cases h
  | ok c1 =>
    cases h2 : isDict s.nameRes r with
    | error e => rw [h1, h2] at h; cases h
    | ok c2 =>
      cases h3 : resolvesTo s env.tables.dictUnion l with
      | error e => rw [h1, h2, h3] at h; cases h
      | ok c3 =>
        cases h4 : resolvesTo s env.tables.dictUnion r with
        | error e => rw [h1, h2, h3, h4] at h; cases h
        | ok c4 =>
          rw [h1, h2, h3, h4] at h
          replace h : Except.ok ((c1 || c3) && (c2 || c4)) = Except.ok true := h
          injection h with h
          simp only [Bool.and_eq_true, Bool.or_eq_true] at h
          refine ⟨h.1.imp (fun h => dictValue_of (by rw [h1, h])) fun h => resolvesTo_refers (by rw [h3, h]),
            h.2.imp (fun h => dictValue_of (by rw [h2, h])) fun h => resolvesTo_refers (by rw [h4, h])⟩

theorem anyDict_true {res : Dict String String} : ∀ {l : List Node}, anyDict res l = .ok true → ∃ x ∈ l, DictValue res x
  | [], h => by cases h
  | x :: l, h => by
    unfold anyDict at h
    split at h
    · rename_i hx; exact ⟨x, by simp, dictValue_of hx⟩
    · obtain ⟨y, hy, h⟩ := anyDict_true h
      exact ⟨y, by simp [hy], h⟩
    · cases h

theorem anyDict_error {res : Dict String String} {e : Err} : ∀ {l : List Node}, anyDict res l = .error e → ∃ x ∈ l, ¬ Parsed x
  | [], h => by cases h
  | x :: l, h => by
    unfold anyDict at h
    split at h
    · cases h
    · obtain ⟨y, hy, h⟩ := anyDict_error h
      exact ⟨y, by simp [hy], h⟩
    · rename_i hx; injection h with h; subst h; exact ⟨x, by simp, isDict_parsed hx⟩

theorem isBytes_iff {n : Node} (h : isBytes n = true) : ∃ t, n.kind = .const (.bytes t) := by
  unfold isBytes at h
  split at h
  · rename_i t hk; exact ⟨t, hk⟩
  · cases h

theorem operator_iff {n : Node} {o : Op} (h : operator n = some o) : HasOp n o := by
  unfold operator at h
  obtain ⟨m, hm, ho⟩ := Option.bind_eq_some_iff.mp h
  exact ⟨m, hm, Acting.opOf_iff ho⟩

theorem endsWith_single {c : Char} {l : List Char} (h : endsWith [c] l = true) : c ∈ l := by
  obtain ⟨t, ht⟩ := List.isSuffixOf_iff_suffix.mp h
  rw [← ht]; simp

theorem mem_strip {c : Char} {l : List Char} (h : c ∈ strip l) : c ∈ l := by
  have h1 : ∀ (p : Char → Bool) (l : List Char), c ∈ l.dropWhile p → c ∈ l := fun p l hc => (List.dropWhile_sublist p).subset hc
  unfold strip rstrip lstrip at h
  have h2 := h1 _ _ (List.mem_reverse.mp h)
  exact h1 _ _ (List.mem_reverse.mp h2)

theorem selfDocPair_spec {s : S} {a b : Node} :
    (∃ x, selfDocPair s a b = .ok x ∧ (x = true → b.kind = .formattedValue ∧ ∃ t, a.kind = .const (.str t) ∧ '=' ∈ t.toList)) ∨
    (∃ e, selfDocPair s a b = .error e ∧ b.kind = .formattedValue ∧
      (¬ Parsed b ∨ HasComplex b ∨ HasDictUnpack b)) := by
  unfold selfDocPair
  cases ha : a.strVal with
  | none => exact .inl ⟨_, rfl, nofun⟩
  | some t =>
    by_cases hc : (endsWith ['='] (strip t.toList) && decide (b.kind = .formattedValue)) = true
    · simp only [hc, if_true]
      have hb := of_decide_eq_true (Bool.and_eq_true_iff.mp hc).2
      have heq : '=' ∈ t.toList := mem_strip (endsWith_single (Bool.and_eq_true_iff.mp hc).1)
      cases hv : b.field .value with
      | none => exact .inr ⟨_, rfl, hb, .inl fun hp => (hp b (.self _)).fields .value (by simp [hb, required]) hv⟩
      | some e =>
        dsimp only
        cases he : extractFstring s.moduleAs e with
        | ok x => exact .inl ⟨_, rfl, fun _ => ⟨hb, t, Acting.strVal_iff ha, heq⟩⟩
        | error e' =>
          have sub : ∀ {m}, In m e → In m b := fun hm => .kid (field_mem hv) hm
          refine .inr ⟨_, rfl, hb, ?_⟩
          rcases extract_textual he with h | ⟨m, hm, h⟩ | ⟨m, l, hm, h⟩
          · exact .inl fun hp => h fun m hm => hp m (sub hm)
          · exact .inr (.inl ⟨m, sub hm, h⟩)
          · exact .inr (.inr ⟨m, l, sub hm, h⟩)
    · simp only [hc]
      exact .inl ⟨_, rfl, nofun⟩

theorem selfDoc_spec {s : S} : ∀ (l : List Node),
    (∃ x, selfDoc s l = .ok x ∧ (x = true → ∃ a b, a ∈ l ∧ b ∈ l ∧ b.kind = .formattedValue ∧ ∃ t, a.kind = .const (.str t) ∧ '=' ∈ t.toList)) ∨
    (∃ e b, selfDoc s l = .error e ∧ b ∈ l ∧ b.kind = .formattedValue ∧
      (¬ Parsed b ∨ HasComplex b ∨ HasDictUnpack b))
  | [] => .inl ⟨_, rfl, nofun⟩
  | [_] => .inl ⟨_, rfl, nofun⟩
  | a :: b :: rest => by
    unfold selfDoc
    rcases selfDocPair_spec (s := s) (a := a) (b := b) with ⟨x, hx, hx'⟩ | ⟨e, he, hb, h⟩
    · rw [hx]
      cases x with
      | true => exact .inl ⟨_, rfl, fun _ => ⟨a, b, by simp, by simp, hx' rfl⟩⟩
      | false =>
        rcases selfDoc_spec (s := s) (b :: rest) with ⟨y, hy, h⟩ | ⟨e, c, hy, hc, h⟩
        · refine .inl ⟨y, hy, fun hyt => ?_⟩
          obtain ⟨c, d, hc, hd, h⟩ := h hyt
          exact ⟨c, d, .tail _ hc, .tail _ hd, h⟩
        · exact .inr ⟨e, c, hy, .tail _ hc, h⟩
    · rw [he]
      exact .inr ⟨e, b, rfl, by simp, hb, h⟩

theorem selfDoc_documented {s : S} : ∀ (l : List Node), selfDoc s l = .ok true →
    ∃ xs t e ys txt v y, l = xs ++ t :: e :: ys ∧ t.kind = .const (.str txt) ∧ e.kind = .formattedValue ∧ e.field .value = some v ∧
      Renders s.moduleAs v y ∧ compact y.toList ≠ [] ∧ (compact y.toList ++ ['=']) <:+ compact txt.toList
  | [], h => by cases h
  | [_], h => by cases h
  | a :: b :: rest, h => by
    unfold selfDoc at h
    split at h
    · rename_i hp
      unfold selfDocPair at hp
      split at hp
      · rename_i txt ht
        split at hp
        · rename_i hc
          split at hp
          · rename_i v hv
            split at hp
            · rename_i y hy
              injection hp with hp
              simp only [Bool.and_eq_true, Bool.not_eq_true', List.isEmpty_eq_false_iff, trim_eq] at hp
              exact ⟨[], a, b, rest, txt, v, y, rfl, Acting.strVal_iff ht, of_decide_eq_true (Bool.and_eq_true_iff.mp hc).2, hv, renders_of hy, hp.1,
                List.isSuffixOf_iff_suffix.mp hp.2⟩
            · cases hp
          · cases hp
        · cases hp
      · cases hp
    · obtain ⟨xs, t, e, ys, txt, v, y, hl, h⟩ := selfDoc_documented (b :: rest) h
      exact ⟨a :: xs, t, e, ys, txt, v, y, by rw [hl]; rfl, h⟩
    · cases h

theorem assignedName_ok (ms : Dict String String) (v : Node) : ∃ a, assignedName ms v = .ok a := by
  have key : ∀ {m : Node} {a : String}, m.kind = .attribute a → ∃ x, assignedAttr ms m = .ok x := by
    intro m a hm
    obtain ⟨d, hd⟩ := dottedAttr_ok (ms := ms) hm
    exact ⟨_, by unfold assignedAttr; rw [hd]⟩
  unfold assignedName
  split
  · unfold assignedCall
    split
    · split
      · exact ⟨_, rfl⟩
      · rename_i hk; exact key hk
      · exact ⟨_, rfl⟩
    · exact ⟨_, rfl⟩
  · rename_i hk; exact key hk
  all_goals exact ⟨_, rfl⟩

theorem assignedAttr_value {ms : Dict String String} {v : Node} {y : String} (h : assignedAttr ms v = .ok (.value y)) : ∃ full, Reads ms v full ∧ y = fullText full := by
  unfold assignedAttr at h
  split at h
  · rename_i d hd; injection h with h; injection h with h; exact dottedAttr_reads (by rw [hd, h])
  · cases h
theorem assignedAttr_type {ms : Dict String String} {v : Node} {y : String} (h : assignedAttr ms v = .ok (.type y)) : False := by
  unfold assignedAttr at h
  split at h <;> cases h

theorem assignedName_value {ms : Dict String String} {v : Node} {y : String} (h : assignedName ms v = .ok (.value y)) : ValueName ms v y := by
  unfold assignedName at h
  cases hk : v.kind with
  | call =>
    rw [hk] at h
    replace h : assignedCall ms v = _ := h
    unfold assignedCall at h
    cases hf : v.field .func with
    | none => rw [hf] at h; cases h
    | some f =>
      rw [hf] at h
      simp only at h
      split at h
      · rename_i id c hfk; injection h with h; injection h with h; subst h; exact .inl ⟨hk, f, hf, .inl ⟨c, hfk⟩⟩
      · rename_i a hfk; exact .inl ⟨hk, f, hf, .inr ⟨⟨a, hfk⟩, assignedAttr_value h⟩⟩
      · cases h
  | «attribute» a => rw [hk] at h; exact .inr (.inl ⟨⟨a, hk⟩, assignedAttr_value h⟩)
  | dict l => rw [hk] at h; injection h with h; injection h with h; subst h; exact .inr (.inr (.inl ⟨⟨l, hk⟩, rfl⟩))
  | set => rw [hk] at h; injection h with h; injection h with h; subst h; exact .inr (.inr (.inr (.inl ⟨hk, rfl⟩)))
  | list c => rw [hk] at h; injection h with h; injection h with h; subst h; exact .inr (.inr (.inr (.inr (.inl ⟨⟨c, hk⟩, rfl⟩))))
  | const c =>
    rw [hk] at h
    refine .inr (.inr (.inr (.inr (.inr ?_))))
    cases c with
    | str t => injection h with h; injection h with h; subst h; exact .inl ⟨⟨t, hk⟩, rfl⟩
    | int t => injection h with h; injection h with h; subst h; exact .inr (.inl ⟨⟨t, hk⟩, rfl⟩)
    | float t => injection h with h; injection h with h; subst h; exact .inr (.inr (.inl ⟨⟨t, hk⟩, rfl⟩))
    | bytes t => injection h with h; injection h with h; subst h; exact .inr (.inr (.inr (.inl ⟨⟨t, hk⟩, rfl⟩)))
    | bool t => injection h with h; injection h with h; subst h; exact .inr (.inr (.inr (.inr ⟨⟨t, hk⟩, rfl⟩)))
    | _ => cases h
  | name id c => rw [hk] at h; cases h
  | _ => rw [hk] at h; cases h
theorem assignedName_type {ms : Dict String String} {v : Node} {y : String} (h : assignedName ms v = .ok (.type y)) : TypeName v y := by
  unfold assignedName at h
  cases hk : v.kind with
  | call =>
    rw [hk] at h
    replace h : assignedCall ms v = _ := h
    unfold assignedCall at h
    cases hf : v.field .func with
    | none => rw [hf] at h; cases h
    | some f =>
      rw [hf] at h
      simp only at h
      split at h
      · cases h
      · exact (assignedAttr_type h).elim
      · cases h
  | «attribute» a => rw [hk] at h; exact (assignedAttr_type h).elim
  | const c =>
    rw [hk] at h
    cases c with
    | none => injection h with h; injection h with h; subst h; exact .inr ⟨hk, rfl⟩
    | _ => cases h
  | name id c => rw [hk] at h; injection h with h; injection h with h; subst h; exact .inl ⟨c, hk⟩
  | _ => rw [hk] at h; cases h

mutual
theorem binds_of_levels {x : String} {m : Node} (hx : m.kind = .name x .store) : ∀ {n : Node}, m ∈ (levels isSubOrAttr n).flatten → Binds n x
  | .mk i ks, h => by
    unfold levels at h
    split at h
    · cases h
    · rename_i hs
      rcases List.mem_append.mp (by simpa using h : m ∈ [Node.mk i ks] ++ (levelsList isSubOrAttr ks).flatten) with h | h
      · rw [List.mem_singleton.mp h] at hx; exact .name hx
      · obtain ⟨k, hk, hb⟩ := binds_of_levelsList hx h
        refine .part (fun hk' => hs ?_) (fun a hk' => hs ?_) hk hb
        · unfold isSubOrAttr; rw [hk']
        · unfold isSubOrAttr; rw [hk']
theorem binds_of_levelsList {x : String} {m : Node} (hx : m.kind = .name x .store) : ∀ {ks : List Node}, m ∈ (levelsList isSubOrAttr ks).flatten → ∃ k ∈ ks, Binds k x
  | [], h => by cases h
  | k :: ks, h => by
    unfold levelsList at h
    rcases mem_mergeLevels.mp h with h | h
    · exact ⟨k, by simp, binds_of_levels hx h⟩
    · obtain ⟨k', hk, hb⟩ := binds_of_levelsList hx h
      exact ⟨k', by simp [hk], hb⟩
end
theorem binds_of_mem {t m : Node} {x : String} (hm : m ∈ assignTargetWalk t) (hx : m.kind = .name x .store) : Binds t x := binds_of_levels hx hm

theorem isAnn_iff {a : Node} {x : String} (h : isAnn a x = true) : AnnIs a x := by
  unfold isAnn at h
  simp only [Bool.or_eq_true, Bool.and_eq_true, decide_eq_true_eq] at h
  rcases h with h | ⟨h1, h2⟩
  · exact .inl (Acting.nameId_iff h)
  · obtain ⟨v, hv, hx⟩ := Option.bind_eq_some_iff.mp h2
    obtain ⟨c, hc⟩ := Acting.nameId_iff hx
    exact .inr ⟨h1, v, c, hv, hc⟩

theorem decoLine_some {env : Env} {n : Node} {l : Nat} (h : decoLine env n = some l) : ∃ d ∈ n.fields .decoratorList, d.line ∉ env.noLines := by
  unfold decoLine at h
  obtain ⟨d, hd, _⟩ := Option.map_eq_some_iff.mp h
  refine ⟨d, List.mem_of_find?_eq_some hd, ?_⟩
  have := List.find?_some hd
  simpa [Env.isNoLine] using this

theorem decoLine_sited {env : Env} {n : Node} {l : Nat} {f : Flag} (h : decoLine env n = some l) : Sited n f (.at l) := by
  unfold decoLine at h
  obtain ⟨d, hd, rfl⟩ := Option.map_eq_some_iff.mp h
  exact .inr (.inl ⟨d, List.mem_of_find?_eq_some hd, rfl⟩)

theorem isNameOrAttr_false {m : Node} (h : isNameOrAttr m = false) : ¬ ((∃ x c, m.kind = .name x c) ∨ ∃ a, m.kind = .attribute a) := by
  rintro (⟨x, c, hk⟩ | ⟨a, hk⟩) <;> simp [isNameOrAttr, hk] at h

theorem decoRoot_iff {d r : Node} : DecoratorExpr d r ↔ r = decoRoot d := by
  unfold DecoratorExpr decoRoot
  split
  · rename_i hk
    cases hf : d.field .func with
    | none => simp [hk]
    | some f => simp [hk, eq_comm]
  · rename_i hk
    exact ⟨fun h => h.elim (fun h => (hk h.1).elim) And.right, fun h => .inr ⟨.inl hk, h⟩⟩

theorem isExceptStar_text {env : Env} {n : Node} (h : isExceptStar env n = true) : ExceptStarText env n.line n.col := by
  unfold isExceptStar at h
  cases hl : sourceLine env n.line with
  | none => rw [hl] at h; cases h
  | some l =>
    simp only [hl, Bool.and_eq_true] at h
    have hs : SourceLine env n.line l := by
      unfold sourceLine at hl
      cases ht : env.source with
      | none => simp only [ht] at hl; cases hl
      | some t =>
        simp only [ht] at hl
        split at hl
        · cases hl
        · exact ⟨t, _, ht, splitlines_lines t, by omega, hl⟩
    obtain ⟨r, hr⟩ := List.isPrefixOf_iff_prefix.mp h.1
    have h2 := h.2
    rw [← hr] at h2
    have : (("except".toList ++ r).drop 6) = r := rfl
    rw [this] at h2
    obtain ⟨r', hr'⟩ := List.isPrefixOf_iff_prefix.mp h2
    refine ⟨l, r.takeWhile isSpace, r', hs, fun c hc => (space_iff c).mp (mem_takeWhile_holds hc), ?_⟩
    rw [← hr, List.append_assoc]
    have := List.takeWhile_append_dropWhile (p := isSpace) (l := r)
    unfold lstrip at hr'
    rw [← hr'] at this
    exact congrArg _ this.symm

theorem withParenStart_split : ∀ {i : Nat} {t : List Char} {j : Nat}, withParenStart i t = some j →
    ∃ a ws b, (∀ c ∈ ws, isSpace c = true ∨ c = '\\') ∧ t = a ++ "with".toList ++ ws ++ '(' :: b
  | i, [], j, h => by cases h
  | i, c :: cs, j, h => by
    unfold withParenStart at h
    split at h
    · rename_i hc
      rw [Bool.and_eq_true] at hc
      obtain ⟨r, hr⟩ := List.isPrefixOf_iff_prefix.mp hc.1
      have h2 := hc.2
      rw [← hr] at h2 ⊢
      have h4 : (("with".toList ++ r).drop 4) = r := rfl
      rw [h4] at h2
      unfold parenFollows at h2
      have hh : (r.dropWhile fun c => isSpace c || c == '\\').head? = some '(' := by simpa using h2
      cases hd : (r.dropWhile fun c => isSpace c || c == '\\') with
      | nil => rw [hd] at hh; cases hh
      | cons x b =>
        rw [hd] at hh; injection hh with hh; subst hh
        refine ⟨[], r.takeWhile fun c => isSpace c || c == '\\', b, fun c hc => ?_, ?_⟩
        · have := mem_takeWhile_holds hc
          simpa using this
        · have := List.takeWhile_append_dropWhile (p := fun c => isSpace c || c == '\\') (l := r)
          rw [hd] at this
          rw [List.nil_append, List.append_assoc, this]
    · obtain ⟨a, ws, b, hw, ht⟩ := withParenStart_split h
      exact ⟨c :: a, ws, b, hw, by rw [ht]; rfl⟩

theorem isWithParen_text {env : Env} {n : Node} (h : isWithParen env n = true) : WithParenText env n.line := by
  simp only [isWithParen] at h
  cases hj : withParenStart 0 (sourceLines env n.line (n.line + 10)) with
  | none => rw [hj] at h; cases h
  | some j =>
    obtain ⟨a, ws, b, hw, ht⟩ := withParenStart_split hj
    refine ⟨a, ws, b, _, fun c hc => (hw c hc).imp_left (space_iff c).mp, fun l hl => ?_, ht⟩
    obtain ⟨i, _, hi⟩ := List.mem_filterMap.mp hl
    refine ⟨n.line + i, by omega, ?_⟩
    unfold sourceLine at hi
    cases ht : env.source with
    | none => simp only [ht] at hi; cases hi
    | some t =>
      simp only [ht] at hi
      split at hi
      · cases hi
      · exact ⟨t, _, ht, splitlines_lines t, by omega, hi⟩

/-! ### Methods -/

set_option linter.unusedSectionVars false
set_option linter.unusedVariables false
namespace Acting
variable {env : Env} {d : Display} {n : Node} {I : S → Prop} {Q : V → V → Prop} {A : Event → Prop} (h : Acting env d n I Q A)
include h

theorem seq3 {a b c a' b' c' : V} (ha : Q a a') (hb : Q b b') (hc : Q c c') : Q (a ;; b ;; c) (a' ;; b' ;; c') := h.seq (h.seq ha hb) hc
theorem seq4 {a b c e a' b' c' e' : V} (ha : Q a a') (hb : Q b b') (hc : Q c c') (he : Q e e') : Q (a ;; b ;; c ;; e) (a' ;; b' ;; c' ;; e') :=
  h.seq (h.seq3 ha hb hc) he
theorem seq5 {a b c e f a' b' c' e' f' : V} (ha : Q a a') (hb : Q b b') (hc : Q c c') (he : Q e e') (hf : Q f f') :
    Q (a ;; b ;; c ;; e ;; f) (a' ;; b' ;; c' ;; e' ;; f') := h.seq (h.seq4 ha hb hc he) hf
theorem seq6 {a b c e f g a' b' c' e' f' g' : V} (ha : Q a a') (hb : Q b b') (hc : Q c c') (he : Q e e') (hf : Q f f') (hg : Q g g') :
    Q (a ;; b ;; c ;; e ;; f ;; g) (a' ;; b' ;; c' ;; e' ;; f' ;; g') := h.seq (h.seq5 ha hb hc he hf) hg

theorem addUserDefNode {m : Node} (hm : ∀ x, m.kind = .name x .store → A (.define x)) : Q (addUserDefNode m) (addUserDefNode m) := by
  unfold Vermin.addUserDefNode
  split
  · rename_i hk; exact h.userDef (hm _ hk)
  · exact h.skip
theorem addTargets {m : Node} (hm : ∀ x, Binds m x → A (.define x)) : Q (addTargets m) (addTargets m) :=
  h.each fun k hk => h.addUserDefNode fun x hx => hm x (binds_of_mem hk hx)
theorem bindTarget {a : AssignedName} {t : Node} (hv : ∀ x y, a = .value y → (∃ c, t.kind = .name x c) → A (.value x y))
    (ht : ∀ x y, a = .type y → (∃ c, t.kind = .name x c) → A (.type x y)) : Q (bindTarget a t) (bindTarget a t) := by
  refine h.optSkip fun id hid => ?_
  cases a with
  | value v => exact h.nameRes (hv _ _ rfl (nameId_iff hid))
  | type v => exact h.nameResType (ht _ _ rfl (nameId_iff hid))
  | nothing => exact h.skip
theorem addNameResAssign (hA : ∀ ev, EmitsIn env I n ev → A ev) (hn : n.kind = .assign ∨ n.kind = .augAssign ∨ n.kind = .annAssign) :
    Q (addNameResAssign n) (addNameResAssign n) := by
  refine h.optSkip fun v hv => h.rd fun s x_ hs => ?_
  refine h.lift (x := assignedName s.moduleAs v) (fun e he => ?_) fun a ha => h.each fun t ht => ?_
  · obtain ⟨a, ha⟩ := assignedName_ok s.moduleAs v
    rw [ha] at he; cases he
  · have hm := List.mem_filter.mp ht
    have hf : t.fld = .targets ∨ t.fld = .target := by simpa using hm.2
    refine h.bindTarget (fun x y hay hx => hA _ (.inl ⟨v, s, ⟨hn, hv, t, hm.1, hf, hx⟩, hs, ?_⟩)) fun x y hay hx => hA _ (.inl ⟨v, ⟨hn, hv, t, hm.1, hf, hx⟩, ?_⟩)
    · subst hay; exact assignedName_value ha
    · subst hay; exact assignedName_type ha
theorem markEllipsis (hA : ∀ ev, EmitsIn env I n ev → A ev) {m : Node} (hm : InSlice n m) : Q (markEllipsis m) (markEllipsis m) :=
  h.when fun he => h.ellipsis (hA (.slice _) ⟨m, hm, of_decide_eq_true he, rfl⟩)
theorem markSubscript (hA : ∀ ev, EmitsIn env I n ev → A ev) {m : Node} (hm : ∀ e, SelfOrElement m e → InSlice n e) :
    Q (markSubscript m) (markSubscript m) := by
  refine h.seq (h.markEllipsis hA (hm m (.inl rfl))) ?_
  split
  · rename_i c hk
    exact h.each fun x hx => h.markEllipsis hA (hm x (.inr ⟨⟨c, hk⟩, hx⟩))
  · exact h.skip
theorem markSlice (hA : ∀ ev, EmitsIn env I n ev → A ev) (hn : n.kind = .subscript) {m : Node} (hm : n.field .slice = some m) :
    Q (markSlice m) (markSlice m) := by
  unfold Vermin.markSlice
  split
  · rename_i hk
    exact h.each fun x hx => h.markEllipsis hA ⟨hn, m, hm, .inr (.inl ⟨hk, hx⟩)⟩
  · rename_i hk
    exact h.optSkip fun v hv => h.markSubscript hA fun e he => ⟨hn, m, hm, .inl ⟨hk, v, hv, he⟩⟩
  · rename_i h1 h2
    exact h.markSubscript hA fun e he => ⟨hn, m, hm, .inr (.inr ⟨h2, h1, he⟩)⟩
theorem compTargets (hA : ∀ ev, EmitsIn env I n ev → A ev) (hn : n.kind = .listComp ∨ n.kind = .generatorExp ∨ n.kind = .setComp ∨ n.kind = .dictComp) :
    Q (compTargets n) (compTargets n) :=
  h.each fun c hc => h.optSkip fun t ht => h.addTargets fun x hx =>
    hA (.define x) (.inr (.inr (.inr (.inr (.inr (.inr (.inr (.inl ⟨hn, c, hc, t, ht, hx⟩))))))))

variable (hA : ∀ ev, EmitsIn env I n ev → A ev)
include hA

omit hA in
/-- An action of an enabled feature that depends on the state. -/
theorem featured {c c' : Bool} {f f' : S → V} (hf : ∀ s x, I s → Q (V.when c (f s)) (V.when c' (f' (s.withOut x)))) :
    Q (V.when c (V.rd f)) (V.when c' (V.rd f')) := by
  have key : ∀ (c : Bool) (f : S → V), V.when c (V.rd f) = V.rd fun s => V.when c (f s) := fun c f => by cases c <;> rfl
  rw [key, key]
  exact h.rd hf

theorem binBitOr (hn : n.kind = .binOp) (ho : HasOp n .bitOr) {l r : Node} (hl : n.field .left = some l) (hr : n.field .right = some r) :
    Q (binBitOr env n l r) (binBitOr (env.show d) n l r) := by
  refine h.seq (h.rd fun s x_ hs => ?_) (h.featured fun s x_ hs => ?_)
  · refine h.lift (x := isDictUnion env s l r) (fun e he => hA _ ?_) fun b hb => h.when fun hbt => h.found _ _ _ _ (hA _ ?_)
    · rcases isDictUnion_spec env s l r with ⟨b, hb, _⟩ | ⟨e', he', hx⟩
      · rw [hb] at he; cases he
      · rw [he'] at he; injection he with he; subst he
        refine .inr (.inr (.inr (.inl ⟨hn, ho, ?_⟩)))
        rcases hx with hx | hx
        · exact ⟨l, .inl hl, hx⟩
        · exact ⟨r, .inr hr, hx⟩
    · rcases isDictUnion_spec env s l r with ⟨b', hb', hx⟩ | ⟨e', he', hx⟩
      · rw [hb'] at hb; injection hb with hb; subst hb
        exact ⟨⟨hn, ho, l, r, hl, hr, hx hbt⟩, s, l, r, hs, hl, hr, isDictUnion_operands (by rw [hb', hbt])⟩
      · rw [he'] at hb; cases hb
  · obtain ⟨b, hb, hx⟩ := bothOk_ok (isNoneOrName_ok s l) (isNoneOrName_ok s r)
    refine h.feature (b := bothOk (isNoneOrName s l) (isNoneOrName s r)) _ _ _ _ (fun _ e he => ?_) (fun hu hb' => hA _ ?_) (by decide) (.inl rfl)
    · rw [hb] at he; cases he
    · rw [hb] at hb'; injection hb' with hbt
      obtain ⟨h1, h2⟩ := bothOk_true (hb.trans (congrArg _ hbt))
      exact ⟨⟨hu, ho, .inl ⟨hn, l, r, hl, hr, hx hbt⟩⟩, s, l, r, hs, .inl ⟨hn, hl, hr, isNoneOrName_operand h1, isNoneOrName_operand h2⟩⟩

theorem visitBinOp (hn : n.kind = .binOp) {cs cs' : List Child} (hk : Kin env d n Q cs cs') : Q (visitBinOp env n cs) (visitBinOp (env.show d) n cs') := by
  refine h.seq3 (h.when fun ho => h.optSkip fun l hl => ?_) (h.when fun ho => h.optSkip fun l hl => h.optSkip fun r hr => ?_) hk.all
  · have ho := operator_iff (of_decide_eq_true ho)
    refine h.seq (h.when fun hb => h.found _ _ _ _ (hA _ ?_)) (h.when fun hb => h.found _ _ _ _ (hA _ ?_))
    · obtain ⟨t, ht⟩ := isBytes_iff hb
      exact ⟨hn, ho, l, t, hl, ht⟩
    · simp only [isBytearrayCall, Bool.and_eq_true, decide_eq_true_eq, Node.isCall] at hb
      exact ⟨hn, ho, l, hl, hb⟩
  · exact h.binBitOr hA hn (operator_iff (of_decide_eq_true ho)) hl hr

theorem visitConstant {c : Const} (hn : n.kind = .const c) : Q (visitConstant env n c) (visitConstant (env.show d) n c) := by
  cases c with
  | bytes t => exact h.seq (h.found _ _ _ _ (hA _ ⟨t, hn⟩)) (h.each fun x hx => h.bytesDir _ (hA _ ⟨t, hn, mem_directives.mp hx⟩))
  | bool b => exact h.says _ _ _ _ _ (hA (.flag .boolConst) (.inl ⟨b, hn⟩)) (by decide) (.inr (.inr ⟨rfl, rfl⟩))
  | ellipsis =>
    show Q (visitEllipsis env n) (visitEllipsis (env.show d) n)
    unfold visitEllipsis
    exact h.rd fun s x_ hs => h.when fun hu => h.found _ _ _ _ (hA (.flag .ellipsisOutOfSlices) ⟨hn, s, hs, fun hm => by
      rw [List.contains_iff_mem.mpr hm] at hu; cases hu⟩)
  | _ => exact h.skip

theorem visitJoinedStr (hn : n.kind = .joinedStr) {cs cs' : List Child} (hk : Kin env d n Q cs cs') :
    Q (visitJoinedStr env n cs) (visitJoinedStr (env.show d) n cs') := by
  refine h.seq3 (h.found _ _ _ _ (hA _ hn)) (h.featured fun s x_ hI => ?_) hk.all
  have hs : ∀ l, selfDoc (s.withOut x_) l = selfDoc s l := fun l => by
    induction l with
    | nil => rfl
    | cons a l ih =>
      cases l with
      | nil => rfl
      | cons b l => unfold selfDoc; rw [ih]; rfl
  rw [hs]
  refine h.feature (b := selfDoc s (n.fields .values)) _ _ _ _ (fun hf e he => hA _ ?_) (fun hf hb => hA _ ?_) (by decide) (.inr (.inr ⟨rfl, rfl⟩))
  · rcases selfDoc_spec (s := s) (n.fields .values) with ⟨x, hx, _⟩ | ⟨e', b, hb, hm, hf', hx⟩
    · rw [hx] at he; cases he
    · rw [hb] at he; injection he with he; subst he
      exact .inr (.inr (.inl ⟨hn, hf, b, hm, hf', hx⟩))
  · rcases selfDoc_spec (s := s) (n.fields .values) with ⟨x, hx, hx'⟩ | ⟨e', b, hb', _⟩
    · rw [hx] at hb; injection hb with hbt
      obtain ⟨a, b, ha, hb, hf', ht⟩ := hx' hbt
      exact ⟨⟨hf, hn, a, b, ha, hb, hf', ht⟩, s, hI, selfDoc_documented _ (hx.trans (congrArg _ hbt))⟩
    · rw [hb'] at hb; cases hb

theorem visitAssign (hn : n.kind = .assign) {cs cs' : List Child} (hk : Kin env d n Q cs cs') : Q (visitAssign env n cs) (visitAssign (env.show d) n cs') :=
  h.gate fun _ => h.seq3 (h.each fun t ht => h.addTargets fun x hx => hA (.define x) (.inr (.inr (.inr (.inl ⟨hn, t, ht, hx⟩))))) (h.addNameResAssign hA (.inl hn)) hk.all

theorem singleTarget (hn : n.kind = .augAssign ∨ n.kind = .annAssign ∨ n.kind = .namedExpr) :
    Q (V.opt (n.field .target) V.skip Vermin.addUserDefNode) (V.opt (n.field .target) V.skip Vermin.addUserDefNode) :=
  h.optSkip fun t ht => h.addUserDefNode fun x hx => hA (.define x) (.inr (.inr (.inr (.inr (.inl ⟨hn, t, ht, hx⟩)))))

theorem augBitOr (hn : n.kind = .augAssign) (ho : HasOp n .bitOr) {t v : Node} (ht : n.field .target = some t) (hv : n.field .value = some v) :
    Q (augBitOr env n t v) (augBitOr (env.show d) n t v) := by
  refine h.rd fun s x_ hs => h.lift (x := isDict s.nameRes v) (fun e he => hA _ ?_) fun vd hvd => h.ite (fun hc => ?_) fun hnd => ?_
  · exact .inr (.inr (.inr (.inr (.inl ⟨hn, ho, v, .inr hv, isDict_parsed he⟩))))
  · obtain ⟨x, hx, hx'⟩ := resolvesTo_ok s env.tables.dictUnionMerge t
    refine h.lift (x := resolvesTo s env.tables.dictUnionMerge t) (fun e he => ?_) fun a ha =>
      h.lift (x := if a then .ok true else isDict s.nameRes t) (fun e he => hA _ ?_) fun b hb => h.when fun hbt => h.found _ _ _ _ (hA _ ?_)
    · rw [hx] at he; cases he
    · split at he
      · cases he
      · exact .inr (.inr (.inr (.inr (.inl ⟨hn, ho, t, .inl ht, isDict_parsed he⟩))))
    · rw [hx] at ha; injection ha with ha; subst ha
      refine ⟨⟨hn, ho, t, v, ht, hv, ?_, isDict_like (by rw [hvd, hc])⟩, s, t, v, hs, ht, hv, ?_, dictValue_of (by rw [hvd, hc])⟩ <;> split at hb
      · rename_i hxt; exact hx' hxt
      · exact isDict_like (by rw [hb, hbt])
      · rename_i hxt; exact .inr (resolvesTo_refers (by rw [hx, hxt]))
      · exact .inl (dictValue_of (by rw [hb, hbt]))
  · obtain ⟨b, hb, hx⟩ := bothOk_ok (isUnionType_ok s t) (isUnionType_ok s v)
    refine h.feature (b := bothOk (isUnionType s t) (isUnionType s v)) _ _ _ _ (fun _ e he => ?_) (fun hu hb' => hA _ ?_) (by decide) (.inl rfl)
    · rw [hb] at he; cases he
    · rw [hb] at hb'; injection hb' with hbt
      obtain ⟨h1, h2⟩ := bothOk_true (hb.trans (congrArg _ hbt))
      refine ⟨⟨hu, ho, .inr ⟨hn, t, v, ht, hv, hx hbt⟩⟩, s, t, v, hs, .inr ⟨hn, ht, hv, isUnionType_target h1, isUnionType_target h2, fun hd => hnd ?_⟩⟩
      rw [isDict_of hd] at hvd
      injection hvd with hvd
      exact hvd.symm

theorem visitAugAssign (hn : n.kind = .augAssign) {cs cs' : List Child} (hk : Kin env d n Q cs cs') :
    Q (visitAugAssign env n cs) (visitAugAssign (env.show d) n cs') :=
  h.gate fun _ => h.seq4 (h.singleTarget hA (.inl hn)) (h.addNameResAssign hA (.inr (.inl hn))) (h.when fun ho => h.optSkip fun t ht => h.optSkip fun v hv => h.augBitOr hA hn (operator_iff (of_decide_eq_true ho)) ht hv) hk.all

theorem visitAnnAssign (hn : n.kind = .annAssign) {cs cs' : List Child} (hk : Kin env d n Q cs cs') :
    Q (visitAnnAssign env n cs) (visitAnnAssign (env.show d) n cs') := by
  refine h.gate fun _ => h.seq (h.saysAnnotations (hA _ (.inl hn)) (hA _ hn) (h.seq3 (h.singleTarget hA (.inr (.inl hn))) (h.addNameResAssign hA (.inr (.inr hn)))
    (h.alt (fun _ => hk.all) fun he => h.mark (hA (.flag .maybeAnnotations) ⟨⟨he, .inl hn⟩, fun hk => by rw [hn] at hk; cases hk⟩) rfl))) (h.optSkip fun a ha => h.ite (fun hf => h.found _ _ _ _ (hA _ ⟨hn, a, ha, isAnn_iff hf⟩)) fun _ =>
        h.when fun hf => h.found _ _ _ _ (hA _ (.inl ⟨hn, a, ha, isAnn_iff hf⟩)))

/-! ### Functions and classes -/

theorem checkRelaxed (hn : IsFunction n ∨ ∃ name, n.kind = .classDef name) : Q (checkRelaxed env n) (checkRelaxed (env.show d) n) := by
  refine h.each fun x hx => h.gate fun hl => h.when fun hw => h.found _ _ _ _ (hA _ ?_) (hl := .inr (.inl ⟨x, hx, rfl⟩))
  obtain ⟨m, hm, hna⟩ := List.any_eq_true.mp hw
  exact ⟨hn, x, _, m, hx, hl, decoRoot_iff.mpr rfl, mem_walk hm, isNameOrAttr_false (by simpa using hna)⟩

theorem checkUserFuncDecos (hn : IsFunction n) : Q (checkUserFuncDecos env n) (checkUserFuncDecos (env.show d) n) := by
  refine h.each fun x hx => h.gate fun hl => h.rd fun s x_ hs => h.lift (x := nameOrAttr s x) (fun e he => ?_) fun name hname =>
    h.optSkip fun y hy => h.deco _ (hA _ ⟨hn, x, hx, hl, s, y, hs, ?_, ?_⟩) ⟨x, .kid (fields_mem hx) (.self x), rfl⟩
  · obtain ⟨o, ho, _⟩ := nameOrAttr_ok s x
    rw [ho] at he; cases he
  · rw [hy] at hname; exact nameOrAttr_spells hname
  · unfold decoName
    cases h1 : Dict.get? s.importMemMod y with
    | some m => exact .inr (.inl ⟨m, h1, dotted_pair ..⟩)
    | none =>
      cases h2 : Dict.get? s.moduleAs y with
      | some m => exact .inr (.inr h2)
      | none => exact .inl rfl

theorem dirFuncs {name : String} (hn : DefinesFunction n name) : Q (dirFuncs env n name) (dirFuncs (env.show d) n name) := by
  refine h.dirs fun s args hs hargs ⟨h1, h2, h3, h4, h5⟩ => ⟨fun hx => hA (.flag .moduleDirFunc) ?_, fun hx => hA (.flag .moduleGetattrFunc) ?_⟩
  · exact ⟨⟨⟨hx.1 ▸ hn, args, hargs, h3, h4, h5, hx.2⟩, h2⟩, s, hs, h1⟩
  · exact ⟨⟨⟨hx.1 ▸ hn, args, hargs, h3, h4, h5, hx.2⟩, h2⟩, s, hs, h1⟩

theorem funcDecos (hn : IsFunction n) : Q (funcDecos env n) (funcDecos (env.show d) n) :=
  h.opt (x := decoLine env n) (fun _ => h.skip) fun l hl => h.seq3 (h.found _ _ _ _ (hA _ ⟨hn, decoLine_some hl⟩) (hl := decoLine_sited hl)) (h.checkRelaxed hA (.inl hn)) (h.checkUserFuncDecos hA hn)

theorem argAnns (hn : IsFunction n) {as : Node} (has : n.field .args = some as) : ∀ {l : List Node}, (∀ p ∈ l, p ∈ as.fields .args) →
    Q (argAnns env n l) (argAnns (env.show d) n l)
  | [], _ => h.skip
  | p :: l, hl => by
    have hr := argAnns hn has (l := l) fun q hq => hl q (.tail _ hq)
    have hp := hl p (.head _)
    unfold Vermin.argAnns
    refine h.opt (fun _ => hr) fun ann hann => h.seq (h.found _ _ _ _ (hA _ (.inr ⟨hn, .inr ⟨ann, as, p, has, hp, hann⟩⟩))) (h.rd fun s x_ hs => ?_)
    refine h.lift (x := isLiteralAnn s ann) (fun e he => hA _ ?_) fun b hb => h.alt (fun hbt => ?_) fun _ => hr
    · unfold isLiteralAnn at he
      split at he
      · cases he
      · split at he
        · cases he
        · rename_i hx; injection he with he; subst he
          exact .inr (.inl ⟨hn, ann, ⟨as, p, has, hp, hann⟩, dottedAttr_complex hx⟩)
    · have hlit : LiteralAnn ann := by
        unfold isLiteralAnn at hb
        split at hb
        · rename_i hl; exact .inl (isAnn_iff hl)
        · split at hb
          · rename_i x hx
            injection hb with hb
            obtain ⟨full, hr, rfl⟩ := dottedAttr_reads hx
            exact .inr ⟨_, full, hr, of_decide_eq_true (hb.trans hbt)⟩
          · cases hb
      exact h.alt (fun hev => h.found _ _ _ _ (hA _ (.inr ⟨hn, hev, ann, ⟨as, p, has, hp, hann⟩, hlit⟩))) fun hev =>
        h.mark (hA (.flag .maybeAnnotations) ⟨⟨hev, .inr (.inl ⟨hn, ann, as, p, has, hp, hann⟩)⟩, fun hk => by
          obtain ⟨name, hn | hn⟩ := hn <;> rw [hn] at hk <;> cases hk⟩) rfl

theorem funcAnns (hn : IsFunction n) : Q (funcAnns env n) (funcAnns (env.show d) n) := by
  refine h.alt (fun hr => ?_) fun _ => ?_
  · obtain ⟨r, hr⟩ := Option.isSome_iff_exists.mp hr
    exact h.found _ _ _ _ (hA _ (.inr ⟨hn, .inl ⟨r, hr⟩⟩))
  · unfold paramsOf
    cases ha : n.field .args with
    | none => exact h.skip
    | some as => exact h.argAnns hA hn ha fun p hp => hp

theorem handleFunctionDef {name : String} (hn : DefinesFunction n name) {cs cs' : List Child} (hk : Kin env d n Q cs cs') :
    Q (handleFunctionDef env n name cs) (handleFunctionDef (env.show d) n name cs') :=
  h.seq5 (h.userDef (hA _ (.inl hn))) (h.dirFuncs hA hn) (h.funcDecos hA ⟨name, hn⟩) (h.inScope (hk.results ⟨name, hn⟩)) (h.funcAnns hA ⟨name, hn⟩)

theorem visitFunctionDef {name : String} (hn : n.kind = .functionDef name) {cs cs' : List Child} (hk : Kin env d n Q cs cs') :
    Q (visitFunctionDef env n name cs) (visitFunctionDef (env.show d) n name cs') :=
  h.gate fun _ => h.yieldScope (h.handleFunctionDef hA (.inl hn) hk)

theorem visitAsyncFunctionDef {name : String} (hn : n.kind = .asyncFunctionDef name) {cs cs' : List Child} (hk : Kin env d n Q cs cs') :
    Q (visitAsyncFunctionDef env n name cs) (visitAsyncFunctionDef (env.show d) n name cs') :=
  h.gate fun _ => h.asyncScope hn (hA _ (.inl ⟨name, hn⟩)) (h.handleFunctionDef hA (.inr hn) hk)

theorem visitLambda {cs cs' : List Child} (hk : Kin env d n Q cs cs') : Q (visitLambda env n cs) (visitLambda (env.show d) n cs') :=
  h.inScope hk.all

theorem visitAwait (hn : n.kind = .await) {cs cs' : List Child} (hk : Kin env d n Q cs cs') : Q (visitAwait env n cs) (visitAwait (env.show d) n cs') :=
  h.gate fun _ => h.seq3 (h.found _ _ _ _ (hA _ (.inr hn))) (h.await (hA _ hn)) hk.all

theorem classDecos {name : String} (hn : n.kind = .classDef name) : Q (classDecos env n) (classDecos (env.show d) n) :=
  h.opt (x := decoLine env n) (fun _ => h.skip) fun l hl => h.seq (h.found _ _ _ _ (hA _ ⟨⟨name, hn⟩, decoLine_some hl⟩) (hl := decoLine_sited hl)) (h.checkRelaxed hA (.inr ⟨name, hn⟩))

omit h hA in
theorem kwArg_iff {k : Node} {x : String} (hk : kwArg k = some x) : k.kind = .keyword (some x) := by
  unfold kwArg at hk
  split at hk
  · rename_i a ha; rw [ha, hk]
  · cases hk

theorem metaclassKw {name : String} (hn : n.kind = .classDef name) : Q (metaclassKw env n) (metaclassKw (env.show d) n) :=
  h.each fun k hk => h.when fun hm => h.found _ _ _ _ (hA _ ⟨⟨name, hn⟩, k, hk, kwArg_iff (of_decide_eq_true hm)⟩)

theorem visitClassDef {name : String} (hn : n.kind = .classDef name) {cs cs' : List Child} (hk : Kin env d n Q cs cs') :
    Q (visitClassDef env n name cs) (visitClassDef (env.show d) n name cs') :=
  h.gate fun _ => h.seq6 (h.userDef (hA _ (.inr (.inl hn)))) (h.nameResType (hA _ (.inr ⟨hn, rfl⟩))) (h.classDecos hA hn) (h.metaclassKw hA hn) hk.all (hk.bodies hn)

theorem visitNamedExpr (hn : n.kind = .namedExpr) {cs cs' : List Child} (hk : Kin env d n Q cs cs') :
    Q (visitNamedExpr env n cs) (visitNamedExpr (env.show d) n cs') :=
  h.gate fun _ => h.seq3 (h.singleTarget hA (.inr (.inr hn))) (h.found _ _ _ _ (hA _ hn)) hk.all

omit h hA in
theorem exists_of_nonempty {α : Type} {l : List α} (hl : (!l.isEmpty) = true) : ∃ a, a ∈ l := by
  cases l with
  | nil => cases hl
  | cons a l => exact ⟨a, .head _⟩

omit h hA in
theorem arg_defines (hn : n.kind = .arguments) {a : Node} {x : String}
    (ha : a ∈ n.fields .args ++ n.fields .posonlyargs ++ n.fields .kwonlyargs ++ n.fields .vararg ++ n.fields .kwarg) (hx : argName a = some x) : Defines n x := by
  refine .inr (.inr (.inr (.inr (.inr (.inr (.inr (.inr (.inr ⟨hn, a, ?_⟩))))))))
  have hk : a.kind = .arg x := by
    unfold argName at hx
    split at hx
    · rename_i y hy; injection hx with hx; rw [hy, hx]
    · cases hx
  simp only [List.mem_append, Node.fields, List.mem_filter, decide_eq_true_eq] at ha
  rcases ha with (((ha | ha) | ha) | ha) | ha <;> exact ⟨ha.1, hk, by simp [ha.2]⟩

theorem visitArguments (hn : n.kind = .arguments) {cs cs' : List Child} (hk : Kin env d n Q cs cs') :
    Q (visitArguments env n cs) (visitArguments (env.show d) n cs') :=
  h.seq4 (h.when fun hc => h.found _ _ _ _ (hA _ ⟨hn, exists_of_nonempty hc⟩)) (h.when fun hc => h.found _ _ _ _ (hA _ ⟨hn, exists_of_nonempty hc⟩)) (h.each fun a ha => h.optSkip fun x hx => h.userDef (hA _ (arg_defines hn ha hx))) hk.all

/-! ### Statements -/

theorem visitNonlocal (hn : n.kind = .nonlocal) {cs cs' : List Child} (hk : Kin env d n Q cs cs') : Q (visitNonlocal env n cs) (visitNonlocal (env.show d) n cs') :=
  h.gate fun _ => h.seq (h.found _ _ _ _ (hA _ hn)) hk.all
theorem visitYieldFrom (hn : n.kind = .yieldFrom) {cs cs' : List Child} (hk : Kin env d n Q cs cs') : Q (visitYieldFrom env n cs) (visitYieldFrom (env.show d) n cs') :=
  h.gate fun _ => h.seq (h.found _ _ _ _ (hA _ hn)) hk.all
theorem visitYield (hn : n.kind = .yield) {cs cs' : List Child} (hk : Kin env d n Q cs cs') : Q (visitYield env n cs) (visitYield (env.show d) n cs') :=
  h.gate fun _ => h.seq (h.yield (hA _ hn)) hk.all

theorem namesAsMembers {e : Node} {f : Fld} (he : n.field f = some e) (hm : ∀ m x, In m e → IsName m x → A (.member x)) :
    Q (namesAsMembers env e) (namesAsMembers (env.show d) e) :=
  h.each fun m hx => h.optSkip fun id hid => h.member _ _ (hm m _ (mem_walk hx) (nameId_iff hid)) ⟨m, .kid (field_mem he) (mem_walk hx), rfl⟩

theorem visitRaise (hn : n.kind = .raise) {cs cs' : List Child} (hk : Kin env d n Q cs cs') : Q (visitRaise env n cs) (visitRaise (env.show d) n cs') := by
  have hm : ∀ e, (n.field .exc = some e ∨ n.field .cause = some e) → ∀ m x, In m e → IsName m x → A (.member x) := fun e he m x h1 h2 =>
    hA _ (.inr (.inr (.inr (.inr (.inl ⟨hn, e, m, he, h1, h2⟩)))))
  refine h.gate fun _ => h.seq4 (h.optSkip fun c hc => ?_) (h.optSkip fun x hx => h.namesAsMembers hA hx (hm x (.inl hx)))
    (h.optSkip fun x hx => h.namesAsMembers hA hx (hm x (.inr hx))) hk.all
  exact h.seq (h.found _ _ _ _ (hA _ ⟨hn, c, hc⟩)) (h.when fun hnn => h.found _ _ _ _ (hA _ ⟨hn, c, hc, isNoneNode_iff hnn⟩))

theorem visitExceptHandler {name : Option String} (hn : n.kind = .exceptHandler name) {cs cs' : List Child} (hk : Kin env d n Q cs cs') :
    Q (visitExceptHandler env n name cs) (visitExceptHandler (env.show d) n name cs') := by
  have hm : ∀ e, n.field .type = some e → ∀ m x, In m e → IsName m x → A (.member x) := fun e he m x h1 h2 =>
    hA _ (.inr (.inr (.inr (.inr (.inr ⟨⟨name, hn⟩, e, m, he, h1, h2⟩)))))
  exact h.gate fun _ => h.seq (h.when fun he => h.found _ _ _ _ (hA _ ⟨⟨name, hn⟩, isExceptStar_text he⟩)) (h.inScope (h.seq3 (h.optSkip fun x hx => h.userDef (hA _ (.inr (.inr (.inr (.inr (.inr (.inr (.inr (.inr (.inl (hx ▸ hn))))))))))))
    (h.optSkip fun x hx => h.namesAsMembers hA hx (hm x hx)) hk.all))

theorem visitComp (hn : n.kind = .listComp ∨ n.kind = .generatorExp ∨ n.kind = .setComp ∨ n.kind = .dictComp) {cs cs' : List Child} (hk : Kin env d n Q cs cs') : Q (visitComp env n cs) (visitComp (env.show d) n cs') :=
  h.inScope (h.seq (h.compTargets hA hn) hk.all)
theorem visitSetComp (hn : n.kind = .setComp) {cs cs' : List Child} (hk : Kin env d n Q cs cs') : Q (visitSetComp env n cs) (visitSetComp (env.show d) n cs') :=
  h.seq (h.found _ _ _ _ (hA _ hn)) (h.visitComp hA (.inr (.inr (.inl hn))) hk)
theorem visitDictComp (hn : n.kind = .dictComp) {cs cs' : List Child} (hk : Kin env d n Q cs cs') : Q (visitDictComp env n cs) (visitDictComp (env.show d) n cs') :=
  h.seq (h.found _ _ _ _ (hA _ hn)) (h.visitComp hA (.inr (.inr (.inr hn))) hk)
theorem visitComprehension {b : Bool} (hn : n.kind = .comprehension b) {cs cs' : List Child} (hk : Kin env d n Q cs cs') :
    Q (visitComprehension env n b cs) (visitComprehension (env.show d) n b cs') :=
  h.seq (h.when fun hb => h.found _ _ _ _ (hA _ (by show n.kind = _; rw [hn, hb]))) (h.compScope hn hk.all)

theorem visitContinue (hn : n.kind = .continue) : Q (visitContinue env n) (visitContinue (env.show d) n) :=
  h.rd fun s x_ hs => h.when fun _ => h.found _ _ _ _ (hA _ hn)

theorem handleWith (hn : n.kind = .with ∨ n.kind = .asyncWith) {cs cs' : List Child} (hk : Kin env d n Q cs cs') :
    Q (handleWith env n cs) (handleWith (env.show d) n cs') := by
  refine h.inScope (h.seq3 (h.each fun w hw => h.optSkip fun t ht => h.addTargets fun x hx => hA (.define x) (.inr (.inr (.inr (.inr (.inr (.inr (.inl ⟨hn, w, hw, t, ht, hx⟩)))))))) (h.when fun hl => ?_) hk.all)
  have hl : 1 < (n.fields .items).length := of_decide_eq_true hl
  exact h.seq (h.found _ _ _ _ (hA _ ⟨hn, hl⟩)) (h.when fun hp => h.found _ _ _ _ (hA _ ⟨hn, hl, isWithParen_text hp⟩))

theorem visitWith (hn : n.kind = .with) {cs cs' : List Child} (hk : Kin env d n Q cs cs') : Q (visitWith env n cs) (visitWith (env.show d) n cs') :=
  h.gate fun _ => h.seq (h.found _ _ _ _ (hA _ hn)) (h.handleWith hA (.inl hn) hk)
theorem visitAsyncWith (hn : n.kind = .asyncWith) {cs cs' : List Child} (hk : Kin env d n Q cs cs') : Q (visitAsyncWith env n cs) (visitAsyncWith (env.show d) n cs') :=
  h.gate fun _ => h.seq (h.found _ _ _ _ (hA _ hn)) (h.handleWith hA (.inr hn) hk)

theorem visitDisplay {cs cs' : List Child} (hk : Kin env d n Q cs cs') : Q (visitDisplay env n cs) (visitDisplay (env.show d) n cs') :=
  h.seq (h.checkUnpacking hA) hk.all
theorem visitSet (hn : n.kind = .set) {cs cs' : List Child} (hk : Kin env d n Q cs cs') : Q (visitSet env n cs) (visitSet (env.show d) n cs') :=
  h.seq (h.found _ _ _ _ (hA _ hn)) (h.visitDisplay hA hk)

theorem genericType (hn : n.kind = .subscript) {v : Node} (hv : n.field .value = some v)
    (hvk : (∃ x c, v.kind = .name x c) ∨ ∃ a, v.kind = .attribute a) {name : String} {s s' : S} (hs : I s) (hs' : I s')
    (hname : SubscriptOf env s s' n name) :
    Q (genericType env name) (genericType (env.show d) name) :=
  h.alt (fun he => h.rd fun s2 x_ hs2 => h.ite (fun _ => h.note _ _ _ _ _ (by decide)) fun hu => h.found _ _ _ _ (hA (.flag .builtinGenericTypeAnnotations)
      ⟨⟨hn, he, v, hv, hvk⟩, s, s', s2, name, hs, hs', hs2, hname, fun hm => hu (List.contains_iff_mem.mpr hm)⟩))
    fun he => h.mark (hA (.flag .maybeAnnotations) ⟨⟨he, .inr (.inr hn)⟩, fun _ => ⟨s, s', name, hs, hs', hname⟩⟩) rfl

theorem subscriptNames (hn : n.kind = .subscript) :
    Q (V.opt (n.field .value) V.skip fun v => V.rd fun s => V.lift (nameOrAttr s v) fun name => V.opt name V.skip (subscriptName env))
      (V.opt (n.field .value) V.skip fun v => V.rd fun s => V.lift (nameOrAttr s v) fun name => V.opt name V.skip (subscriptName (env.show d))) := by
  refine h.optSkip fun v hv => h.rd fun s x_ hs => ?_
  obtain ⟨r, hr, hrk⟩ := nameOrAttr_ok s v
  refine h.lift (x := nameOrAttr s v) (fun e he => ?_) fun name hname => h.optSkip fun coll hcoll => ?_
  · rw [hr] at he; cases he
  · have hsp : Spells s.moduleAs v coll := nameOrAttr_spells (hcoll ▸ hname)
    rw [hr] at hname; injection hname with hname; subst hname
    have hg := @genericType env d n I Q A h hA hn v hv (hrk _ hcoll)
    refine h.rd fun s' x_ hs' => h.ite (fun ht => ?_) fun _ => h.opt (x := Dict.get? s'.importMemMod coll) (fun ho => ?_) fun m ho => h.when fun ht => ?_
    · exact hg hs hs' ⟨List.contains_iff_mem.mp ht, hn, v, coll, hv, hsp, .inl rfl⟩
    · exact h.opt (x := Dict.get? s'.nameResType coll) (fun _ => h.skip) fun ts hts => h.each fun t hm => h.when fun ht =>
        hg hs hs' ⟨List.contains_iff_mem.mp ht, hn, v, coll, hv, hsp, .inr (.inr ⟨ho, ts, hts, hm⟩)⟩
    · exact hg hs hs' ⟨List.contains_iff_mem.mp ht, hn, v, coll, hv, hsp, .inr (.inl ⟨m, ho, dotted_pair ..⟩)⟩

theorem visitSubscript (hn : n.kind = .subscript) {cs cs' : List Child} (hk : Kin env d n Q cs cs') :
    Q (visitSubscript env n cs) (visitSubscript (env.show d) n cs') :=
  h.gate fun _ => h.seq3 (h.subscriptNames hA hn) (h.optSkip fun sl hsl => h.markSlice hA hn hsl) hk.all

theorem visitMatch (hn : n.kind = .match) {cs cs' : List Child} (hk : Kin env d n Q cs cs') : Q (visitMatch env n cs) (visitMatch (env.show d) n cs') :=
  h.gate fun _ => h.seq (h.found _ _ _ _ (hA _ hn)) hk.all
theorem visitGated {cs cs' : List Child} (hk : Kin env d n Q cs cs') : Q (visitGated env n cs) (visitGated (env.show d) n cs') :=
  h.gate fun _ => hk.all

theorem forDict (hn : n.kind = .for ∨ n.kind = .asyncFor) : Q (forDict n) (forDict n) := by
  refine h.optSkip fun id hid => h.optSkip fun it hit => h.rd fun s x_ hs => h.lift (x := anyDict s.nameRes (eltsOf it)) (fun e he => hA _ ?_) fun b hb =>
    h.when fun hbt => h.nameRes ?_
  · obtain ⟨x, hx, he⟩ := anyDict_error he
    exact .inr (.inr (.inr (.inr (.inr ⟨hn, it, x, hit, (List.mem_filter.mp hx).1, he⟩))))
  · obtain ⟨t, ht, hid⟩ := Option.bind_eq_some_iff.mp hid
    obtain ⟨c, hc⟩ := nameId_iff hid
    obtain ⟨e, he, hd⟩ := anyDict_true (hb.trans (congrArg _ hbt))
    exact hA _ (.inr ⟨hn, rfl, ⟨t, c, ht, hc⟩, it, e, s, hit, he, hs, hd⟩)

theorem forTargets (hn : n.kind = .for ∨ n.kind = .asyncFor) :
    Q (V.opt (n.field .target) V.skip Vermin.addTargets) (V.opt (n.field .target) V.skip Vermin.addTargets) :=
  h.optSkip fun t ht => h.addTargets fun x hx => hA (.define x) (.inr (.inr (.inr (.inr (.inr (.inl ⟨hn, t, ht, hx⟩))))))
theorem withTargets (hn : n.kind = .with ∨ n.kind = .asyncWith) :
    Q (V.each (fun w => V.opt (w.field .optionalVars) V.skip Vermin.addTargets) (n.fields .items))
      (V.each (fun w => V.opt (w.field .optionalVars) V.skip Vermin.addTargets) (n.fields .items)) :=
  h.each fun w hw => h.optSkip fun t ht => h.addTargets fun x hx => hA (.define x) (.inr (.inr (.inr (.inr (.inr (.inr (.inl ⟨hn, w, hw, t, ht, hx⟩)))))))

theorem handleFor (hn : n.kind = .for ∨ n.kind = .asyncFor) {cs cs' : List Child} (hk : Kin env d n Q cs cs') :
    Q (handleFor env n cs) (handleFor (env.show d) n cs') :=
  h.gate fun _ => h.forScope hn (h.forTargets hA hn) (h.forDict hA hn) hk.all
theorem visitAsyncFor (hn : n.kind = .asyncFor) {cs cs' : List Child} (hk : Kin env d n Q cs cs') : Q (visitAsyncFor env n cs) (visitAsyncFor (env.show d) n cs') :=
  h.gate fun _ => h.seq (h.found _ _ _ _ (hA _ hn)) (h.handleFor hA (.inr hn) hk)
theorem visitWhile (hn : n.kind = .while) {cs cs' : List Child} (hk : Kin env d n Q cs cs') : Q (visitWhile env n cs) (visitWhile (env.show d) n cs') :=
  h.gate fun _ => h.whileScope hn hk.all
theorem visitTry (hn : n.kind = .try) {cs cs' : List Child} (hk : Kin env d n Q cs cs') : Q (visitTry env n cs) (visitTry (env.show d) n cs') :=
  h.gate fun _ => h.tryScope hn (hk.finals hn) hk.all
theorem visitTypeAlias (hn : n.kind = .typeAlias) {cs cs' : List Child} (hk : Kin env d n Q cs cs') :
    Q (visitTypeAlias env n cs) (visitTypeAlias (env.show d) n cs') :=
  h.gate fun _ => h.seq (h.found _ _ _ _ (hA _ hn)) hk.all
theorem visitOp {o : Op} (hn : n.kind = .op o) {cs cs' : List Child} (hk : Kin env d n Q cs cs') : Q (visitOp env n o cs) (visitOp (env.show d) n o cs') := by
  cases o with
  | matMult => exact h.seq (h.found _ _ _ _ (hA _ hn)) hk.all
  | floorDiv | pow | bitXor | uSub | uAdd | invert | lShift | rShift | notIn | isNot | and | ltE | gtE => exact hk.all
  | _ => exact h.skip

theorem visitAlg {cs cs' : List Child} (hk : Kin env d n Q cs cs') : Q (visitAlg env n cs) (visitAlg (env.show d) n cs') := by
  unfold Vermin.visitAlg
  cases hn : n.kind with
  | «import» => exact h.visitImport hA hn
  | importFrom m l => exact h.visitImportFrom hA hn
  | name id c => exact h.visitName hA hn
  | starred ctx => exact h.visitStarred hA hn hk
  | call => exact h.visitCall hA hn hk
  | «attribute» a => exact h.visitAttribute hA hn hk
  | keyword a => exact h.visitKeyword hA hn hk
  | binOp => exact h.visitBinOp hA hn hk
  | const c => exact h.visitConstant hA hn
  | joinedStr => exact h.visitJoinedStr hA hn hk
  | assign => exact h.visitAssign hA hn hk
  | augAssign => exact h.visitAugAssign hA hn hk
  | annAssign => exact h.visitAnnAssign hA hn hk
  | functionDef name => exact h.visitFunctionDef hA hn hk
  | asyncFunctionDef name => exact h.visitAsyncFunctionDef hA hn hk
  | lambda => exact h.visitLambda hA hk
  | await => exact h.visitAwait hA hn hk
  | classDef name => exact h.visitClassDef hA hn hk
  | namedExpr => exact h.visitNamedExpr hA hn hk
  | arguments => exact h.visitArguments hA hn hk
  | nonlocal => exact h.visitNonlocal hA hn hk
  | yieldFrom => exact h.visitYieldFrom hA hn hk
  | yield => exact h.visitYield hA hn hk
  | raise => exact h.visitRaise hA hn hk
  | exceptHandler name => exact h.visitExceptHandler hA hn hk
  | listComp => exact h.visitComp hA (.inl hn) hk
  | generatorExp => exact h.visitComp hA (.inr (.inl hn)) hk
  | setComp => exact h.visitSetComp hA hn hk
  | dictComp => exact h.visitDictComp hA hn hk
  | comprehension a => exact h.visitComprehension hA hn hk
  | «continue» => exact h.visitContinue hA hn
  | «with» => exact h.visitWith hA hn hk
  | asyncWith => exact h.visitAsyncWith hA hn hk
  | dict l => exact h.visitDisplay hA hk
  | tuple c => exact h.visitDisplay hA hk
  | list c => exact h.visitDisplay hA hk
  | set => exact h.visitSet hA hn hk
  | subscript => exact h.visitSubscript hA hn hk
  | «match» => exact h.visitMatch hA hn hk
  | «if» => exact h.visitGated hA hk
  | ifExp => exact h.visitGated hA hk
  | boolOp => exact h.visitGated hA hk
  | «for» => exact h.handleFor hA (.inl hn) hk
  | asyncFor => exact h.visitAsyncFor hA hn hk
  | «while» => exact h.visitWhile hA hn hk
  | «try» => exact h.visitTry hA hn hk
  | typeAlias => exact h.visitTypeAlias hA hn hk
  | op o => exact h.visitOp hA hn hk
  | «alias» x y => exact h.skip
  | pass => exact h.skip
  | «break» => exact h.skip
  | _ => exact hk.all

end Acting

theorem Closed.namesAsMembers {env : Env} {d : Display} {n : Node} {I : S → Prop} {Q : V → V → Prop} {A : Event → Prop} (h : Closed env d n I Q A)
    (_ : ∀ ev, EmitsIn env I n ev → A ev) {e : Node} (hm : ∀ m x, In m e → IsName m x → A (.member x)) :
    Q (namesAsMembers env e) (namesAsMembers (env.show d) e) :=
  h.each fun m hx => h.optSkip fun _ hid => h.member _ _ (hm m _ (mem_walk hx) (Acting.nameId_iff hid))

namespace Visiting
variable {env : Env} {d : Display} {n : Node} {I : S → Prop} {Q : V → V → Prop} {A : Event → Prop} (h : Visiting env d n I Q A)
include h

theorem generic (m : Node) {cs cs' : List Child} (hk : Kids n Q cs cs') : Q (Vermin.gen env m cs) (Vermin.gen (env.show d) m cs') :=
  h.gen m (h.eachVisit hk)
omit h in
theorem _root_.Vermin.Kids.dropReturns {cs cs' : List Child} (hk : Kids n Q cs cs') : Kids n Q (dropReturnsKids env cs) (dropReturnsKids (env.show d) cs') :=
  hk.filter fun k => env.cfg.evalAnnotations || decide (k.fld ≠ .returns)
theorem kin {cs cs' : List Child} (hk : Kids n Q cs cs') : Kin env d n Q cs cs' where
  all := h.generic n hk
  results _ := h.generic _ hk.dropReturns
  finals _ := h.eachVisit (hk.filter fun k => decide (k.fld = .finalbody))
  bodies hn := h.eachGvisit hn (hk.filter fun k => decide (k.fld = .body))

end Visiting

/-! ### The whole visit -/

section
variable {env : Env} {d : Display} {I : Node → S → Prop} {Q : Node → V → V → Prop} {A : Node → Event → Prop}
  (hc : ∀ n, Visiting env d n (I n) (Q n) (A n)) (hA : ∀ n ev, EmitsIn env (I n) n ev → A n ev)
  (hup : ∀ n k, k ∈ n.kids → ∀ v v', Q k v v' → Q n v v')
include hc hA hup

mutual
/-- **The traversal principle.** -/
theorem visitNode_visiting : ∀ n, Q n (visitNode env n).1 (visitNode (env.show d) n).1 ∧ Q n (visitNode env n).2 (visitNode (env.show d) n).2
  | .mk i ks => by
    have hk : Kids (.mk i ks) (Q (.mk i ks)) (visitKids env ks) (visitKids (env.show d) ks) :=
      visitKids_visiting (.mk i ks) ks fun k hk => hk
    unfold visitNode
    exact ⟨(hc _).visitAlg (hA _) ((hc _).kin hk), (hc _).generic _ hk⟩
theorem visitKids_visiting (n : Node) : ∀ ks : List Node, (∀ k ∈ ks, k ∈ n.kids) → Kids n (Q n) (visitKids env ks) (visitKids (env.show d) ks)
  | [], _ => .nil
  | k :: ks, hk => by
    have := visitNode_visiting k
    unfold visitKids
    exact .cons rfl (hup n k (hk k (.head _)) _ _ this.1) (fun _ => hup n k (hk k (.head _)) _ _ this.2) (visitKids_visiting n ks fun x hx => hk x (.tail _ hx))
end

theorem visit_visiting (n : Node) : Q n (visit env n) (visit (env.show d) n) := (visitNode_visiting hc hA hup n).1
end

section
variable {env : Env} {d : Display} {I : Node → S → Prop} {Q : Node → V → V → Prop} {A : Node → Event → Prop}
  (hc : ∀ n, Closed env d n (I n) (Q n) (A n)) (hA : ∀ n ev, EmitsIn env (I n) n ev → A n ev)
  (hup : ∀ n k, k ∈ n.kids → ∀ v v', Q k v v' → Q n v v')
include hc hA hup

theorem visitKids_closed (n : Node) (ks : List Node) (hk : ∀ k ∈ ks, k ∈ n.kids) : Kids n (Q n) (visitKids env ks) (visitKids (env.show d) ks) :=
  visitKids_visiting (fun n => (hc n).toVisiting) hA hup n ks hk
theorem visit_closed (n : Node) : Q n (visit env n) (visit (env.show d) n) := visit_visiting (fun n => (hc n).toVisiting) hA hup n
theorem genericVisit_closed (n : Node) : Q n (genericVisit env n) (genericVisit (env.show d) n) := (visitNode_visiting (fun n => (hc n).toVisiting) hA hup n).2
end

end Vermin
