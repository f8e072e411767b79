import Verif.Lemmas.Names
import Verif.Spec.Parsed
/-
Names, dictionaries and texts of parsed expressions are found without exceptions.
-/
namespace Vermin
open Py Spec

/-! ### Attribute names -/

theorem attrStep_tame {ms : Dict String String} {full : List (Option String)} {p : Bool} {a : Node} (ha : ¬ IsComplex a) (hf : none ∉ full) :
    ∃ full', attrStep ms full p a = .ok full' ∧ none ∉ full' := by
  unfold attrStep
  split
  · exact ⟨_, rfl, by unfold attrNames; split <;> simp [hf]⟩
  · exact ⟨_, rfl, by unfold callNames; split <;> simp [hf]⟩
  · exact ⟨_, rfl, by split <;> simp [hf]⟩
  · exact ⟨_, rfl, by split <;> simp [hf]⟩
  · exact ⟨_, rfl, by split <;> simp [hf]⟩
  · rename_i c hk
    split
    · exact ⟨_, rfl, hf⟩
    · unfold attrConst
      split
      · exact ⟨_, rfl, by split <;> simp [hf]⟩
      · exact ⟨_, rfl, by split <;> simp [hf]⟩
      · exact ⟨_, rfl, by split <;> simp [hf]⟩
      · exact absurd ⟨_, hk⟩ ha
      · exact ⟨_, rfl, by split <;> simp [hf]⟩
      · exact ⟨_, rfl, hf⟩
  · exact ⟨_, rfl, hf⟩

theorem attrLoop_tame {ms : Dict String String} : ∀ (l : List Node) (full : List (Option String)) (p : Bool), (∀ a ∈ l, ¬ IsComplex a) →
    none ∉ full → ∃ full', attrLoop ms full p l = .ok full' ∧ none ∉ full'
  | [], full, _, _, hf => ⟨full, rfl, hf⟩
  | a :: l, full, p, h, hf => by
    obtain ⟨f', h1, h2⟩ := attrStep_tame (ms := ms) (p := p || headBuiltin full) (h a (by simp)) hf
    obtain ⟨f2, h3, h4⟩ := attrLoop_tame (ms := ms) l f' (p || headBuiltin full) (fun b hb => h b (by simp [hb])) h2
    exact ⟨f2, by simp only [attrLoop, h1, h3], h4⟩

theorem attributeName_tame {ms : Dict String String} {n : Node} (h : ¬ HasComplex n) : ∃ l, attributeName ms n = .ok l ∧ none ∉ l := by
  obtain ⟨f, hf, hn⟩ := attrLoop_tame (ms := ms) (walk n) [] false (fun a ha hc => h ⟨a, mem_walk ha, hc⟩) (by simp)
  unfold attributeName
  rw [hf]
  exact ⟨_, rfl, by simpa using hn⟩

theorem dottedAttr_tame {ms : Dict String String} {n : Node} (h : ¬ HasComplex n) : ∃ d, dottedAttr ms n = .ok d := by
  obtain ⟨l, hl, _⟩ := attributeName_tame (ms := ms) h
  exact ⟨_, by unfold dottedAttr; rw [hl]⟩

/-! ### Dictionaries -/

/-- No exception -/
def Fine {α : Type} (x : Except Err α) : Prop := ∃ a, x = .ok a

theorem isDictAt_fine {l : List (Except Err Bool)} {n : Int} (hl : ∀ x ∈ l, Fine x) (hn : 0 ≤ n) : Fine (isDictAt l n) := by
  unfold isDictAt
  split
  · rename_i h
    unfold pyIndex
    rw [if_pos hn]
    have hlt : n.toNat < l.length := by omega
    rw [List.getElem?_eq_getElem hlt]
    exact hl _ (List.getElem_mem hlt)
  · exact ⟨_, rfl⟩

theorem isDictStep_fine {res : Dict String String} {n : Node} {ks : List (Node × DictInfo)} (hp : Parsed n) (hks : ∀ k ∈ ks, Fine k.2.self ∧ ∀ r ∈ k.2.kids, Fine r.2) : Fine (isDictStep res n ks) := by
  have hkid : ∀ f, ∀ r ∈ kidDicts ks f, Fine r.2 := by
    intro f r hr
    unfold kidDicts at hr
    split at hr
    · rename_i k hk; exact (hks k (List.mem_of_find?_eq_some hk)).2 r hr
    · cases hr
  unfold isDictStep
  split
  · exact ⟨_, rfl⟩
  · exact ⟨_, rfl⟩
  · split
    · exact ⟨_, rfl⟩
    · split
      · rename_i f r hr
        have := List.mem_of_find?_eq_some hr
        unfold lambdaKids at this
        split at this
        · exact hkid _ _ this
        · cases this
      · exact ⟨_, rfl⟩
  · split
    · rename_i i hi
      refine isDictAt_fine ?_ ?_
      · intro x hx
        obtain ⟨r, hr, rfl⟩ := List.mem_map.mp hx
        exact hkid _ _ (List.mem_filter.mp hr).1
      · unfold subscriptIndex at hi
        split at hi
        · rename_i sl0 hsl0
          split at hi
          · split at hi
            · rename_i j hc
              cases hi
              obtain ⟨sl, hsl, hcv⟩ := Option.bind_eq_some_iff.mp hc
              have hsh : Shaped sl := hp sl (.kid (field_mem hsl0) (.kid (field_mem hsl) (.self _)))
              refine hsh.numbers _ ?_
              unfold Node.constVal at hcv
              split at hcv
              · rename_i h; cases hcv; exact h
              · cases hcv
            · cases hi
          · obtain ⟨c, hcv, hci⟩ := Option.bind_eq_some_iff.mp hi
            have hsh : Shaped sl0 := hp sl0 (.kid (field_mem hsl0) (.self _))
            cases c with
            | int j =>
              cases hci
              refine hsh.numbers i ?_
              unfold Node.constVal at hcv
              split at hcv
              · rename_i h; cases hcv; exact h
              · cases hcv
            | bool b => cases b <;> cases hci <;> decide
            | _ => cases hci
        · cases hi
    · exact ⟨_, rfl⟩
  · exact ⟨_, rfl⟩

mutual
theorem dictInfo_fine {res : Dict String String} : ∀ {n : Node}, Parsed n →
    Fine (dictInfo res n).self ∧ ∀ r ∈ (dictInfo res n).kids, Fine r.2
  | .mk i ks, h => by
    have hks := dictInfos_fine (res := res) (ks := ks) fun k hk m hm => h m (.kid (n := .mk i ks) hk hm)
    unfold dictInfo
    refine ⟨isDictStep_fine h hks, ?_⟩
    intro r hr
    obtain ⟨k, hk, rfl⟩ := List.mem_map.mp hr
    exact (hks k hk).1
theorem dictInfos_fine {res : Dict String String} : ∀ {ks : List Node}, (∀ k ∈ ks, Parsed k) →
    ∀ k ∈ dictInfos res ks, Fine k.2.self ∧ ∀ r ∈ k.2.kids, Fine r.2
  | [], _ => by intro k hk; cases hk
  | k :: ks, h => by
    intro k' hk'
    unfold dictInfos at hk'
    rcases List.mem_cons.mp hk' with rfl | hk'
    · exact dictInfo_fine (h k (by simp))
    · exact dictInfos_fine (fun k hk => h k (by simp [hk])) k' hk'
end

theorem isDict_fine {res : Dict String String} {n : Node} (h : Parsed n) : Fine (isDict res n) := (dictInfo_fine h).1

/-! ### Texts of f-strings -/

theorem allOk_fine {α : Type} : ∀ {l : List (Except Err α)}, (∀ x ∈ l, Fine x) → Fine (allOk l)
  | [], _ => ⟨_, rfl⟩
  | x :: l, h => by
    obtain ⟨a, rfl⟩ := h x (by simp)
    obtain ⟨as, has⟩ := allOk_fine (l := l) fun y hy => h y (by simp [hy])
    exact ⟨a :: as, by simp [allOk, has]⟩

theorem fKeys_fine : ∀ {l : List Bool} {rs : List (Except Err String)}, true ∉ l → rs.length = (l.filter (!·)).length → (∀ r ∈ rs, Fine r) →
    ∀ r ∈ fKeys l rs, Fine r
  | [], _, _, _, _ => by intro r hr; cases hr
  | true :: l, _, h, _, _ => absurd (by simp) h
  | false :: l, [], _, hl, _ => by simp at hl
  | false :: l, r :: rs, h, hl, hr => by
    intro x hx
    rcases List.mem_cons.mp (show x ∈ r :: fKeys l rs from hx) with rfl | hx
    · exact hr _ (by simp)
    · exact fKeys_fine (l := l) (rs := rs) (fun hm => h (by simp [hm])) (by simpa using hl) (fun y hy => hr y (by simp [hy])) x hx

/-- A contribution without `None` -/
def FineItem (x : Except Err FItem) : Prop := ∃ i, x = .ok i ∧ none ∉ i.app

theorem fWalk_fine : ∀ {l : List (Except Err FItem)}, (∀ x ∈ l, FineItem x) → ∃ r, fWalk l = .ok r ∧ none ∉ r.1
  | [], _ => ⟨_, rfl, by simp⟩
  | x :: l, h => by
    obtain ⟨i, rfl, hi⟩ := h x (by simp)
    obtain ⟨r, hr, hn⟩ := fWalk_fine (l := l) fun y hy => h y (by simp [hy])
    unfold fWalk
    split
    · exact ⟨_, rfl, hi⟩
    · rw [hr]; exact ⟨_, rfl, by simp [hi, hn]⟩

theorem fResult_fine {r : List (Option String) × Bool} (h : none ∉ r.1) : Fine (fResult (.ok r)) := by
  obtain ⟨l, c⟩ := r
  unfold fResult
  dsimp only
  split
  · rename_i hx
    obtain ⟨o, ho, hn⟩ := List.any_eq_true.mp hx
    cases o with
    | none => exact absurd ho h
    | some _ => cases hn
  · split
    · exact ⟨_, rfl⟩
    · exact ⟨_, rfl⟩

theorem fOne_fine {n : Node} {ks : List (Node × FInfo)} {f : Fld} (hk : ks.map (·.1) = n.kids) (hf : n.field f ≠ none)
    (h : ∀ k ∈ ks, Fine k.2.res) : Fine (fOne ks f) := by
  unfold fOne
  cases hx : ks.find? fun k => decide (k.1.fld = f) with
  | some k => exact h k (List.mem_of_find?_eq_some hx)
  | none =>
    refine absurd ?_ hf
    unfold Node.field
    rw [← hk, List.find?_eq_none]
    intro x hx'
    obtain ⟨k, hk', rfl⟩ := List.mem_map.mp hx'
    exact List.find?_eq_none.mp hx k hk'

theorem fAll_fine {ks : List (Node × FInfo)} {f : Fld} (h : ∀ k ∈ ks, Fine k.2.res) : ∀ r ∈ fAll ks f, Fine r := by
  intro r hr
  obtain ⟨k, hk, rfl⟩ := List.mem_map.mp hr
  exact h k (List.mem_filter.mp hk).1

theorem fAll_length {n : Node} {ks : List (Node × FInfo)} {f : Fld} (hk : ks.map (·.1) = n.kids) : (fAll ks f).length = (n.fields f).length := by
  unfold fAll Node.fields
  rw [← hk, List.filter_map, List.length_map, List.length_map]
  rfl

theorem last_fine (t : String) : FineItem (.ok (FItem.last t)) := ⟨_, rfl, by simp [FItem.last]⟩

theorem fItem_fine {ms : Dict String String} {n : Node} {ks : List (Node × FInfo)} (hp : Shaped n) (hc : ¬ HasComplex n) (hd : ¬ HasDictUnpack n)
    (hk : ks.map (·.1) = n.kids) (h : ∀ k ∈ ks, Fine k.2.res) : FineItem (fItem ms n ks) := by
  have one : ∀ {f : Fld}, f ∈ required n.kind → Fine (fOne ks f) := fun hf => fOne_fine hk (hp.fields _ hf) h
  have all : ∀ f : Fld, Fine (allOk (fAll ks f)) := fun f => allOk_fine (fAll_fine h)
  unfold fItem
  split
  case h_1 => exact ⟨_, rfl, by simp⟩
  case h_2 => exact ⟨_, rfl, by simp⟩
  case h_3 => exact ⟨_, rfl, by simp⟩
  case h_4 => exact ⟨_, rfl, by simp⟩
  case h_5 hkd =>
    obtain ⟨a, ha⟩ := one (f := .target) (by simp [hkd, required])
    obtain ⟨b, hb⟩ := one (f := .iter) (by simp [hkd, required])
    rw [ha, hb]; exact last_fine _
  case h_6 hkd =>
    obtain ⟨l, hl, hn⟩ := attributeName_tame (ms := ms) hc
    rw [hl]; exact ⟨_, rfl, hn⟩
  case h_7 hkd =>
    obtain ⟨a, ha⟩ := one (f := .value) (by simp [hkd, required])
    rw [ha]; exact last_fine _
  case h_8 hkd =>
    split
    · obtain ⟨a, ha⟩ := one (f := .func) (by simp [hkd, required])
      rw [ha]; exact ⟨_, rfl, by simp⟩
    · exact ⟨_, rfl, by simp⟩
  case h_9 hkd =>
    obtain ⟨a, ha⟩ := one (f := .left) (by simp [hkd, required])
    obtain ⟨b, hb⟩ := one (f := .op) (by simp [hkd, required])
    obtain ⟨c, hc⟩ := one (f := .right) (by simp [hkd, required])
    rw [ha, hb, hc]; exact last_fine _
  case h_10 hkd =>
    obtain ⟨a, ha⟩ := one (f := .op) (by simp [hkd, required])
    obtain ⟨b, hb⟩ := one (f := .operand) (by simp [hkd, required])
    rw [ha, hb]; exact last_fine _
  case h_11 hkd =>
    obtain ⟨a, ha⟩ := one (f := .op) (by simp [hkd, required])
    obtain ⟨b, hb⟩ := all .values
    rw [ha, hb]; exact last_fine _
  case h_12 hkd =>
    obtain ⟨a, ha⟩ := one (f := .test) (by simp [hkd, required])
    obtain ⟨b, hb⟩ := one (f := .ifBody) (by simp [hkd, required])
    obtain ⟨c, hc⟩ := one (f := .ifOrelse) (by simp [hkd, required])
    rw [ha, hb, hc]; exact last_fine _
  case h_13 hkd => obtain ⟨a, ha⟩ := all .elts; rw [ha]; exact last_fine _
  case h_14 hkd => obtain ⟨a, ha⟩ := all .elts; rw [ha]; exact last_fine _
  case h_15 hkd => obtain ⟨a, ha⟩ := all .elts; rw [ha]; exact last_fine _
  case h_16 l hkd =>
    have hnt : true ∉ l := fun hm => hd ⟨n, l, .self _, hkd, hm⟩
    obtain ⟨a, ha⟩ := allOk_fine (fKeys_fine (rs := fAll ks .keys) hnt (by rw [fAll_length hk]; exact hp.keys l hkd) (fAll_fine h))
    obtain ⟨b, hb⟩ := all .values
    rw [ha, hb]; exact last_fine _
  case h_17 hkd =>
    obtain ⟨a, ha⟩ := one (f := .elt) (by simp [hkd, required])
    obtain ⟨b, hb⟩ := all .generators
    rw [ha, hb]; exact last_fine _
  case h_18 hkd =>
    obtain ⟨a, ha⟩ := one (f := .elt) (by simp [hkd, required])
    obtain ⟨b, hb⟩ := all .generators
    rw [ha, hb]; exact last_fine _
  case h_19 hkd =>
    obtain ⟨a, ha⟩ := one (f := .key) (by simp [hkd, required])
    obtain ⟨b, hb⟩ := one (f := .value) (by simp [hkd, required])
    obtain ⟨c, hc⟩ := all .generators
    rw [ha, hb, hc]; exact last_fine _
  case h_20 hkd =>
    obtain ⟨a, ha⟩ := one (f := .elt) (by simp [hkd, required])
    obtain ⟨b, hb⟩ := all .generators
    rw [ha, hb]; exact last_fine _
  case h_21 hkd =>
    obtain ⟨a, ha⟩ := one (f := .left) (by simp [hkd, required])
    obtain ⟨b, hb⟩ := all .ops
    obtain ⟨c, hc⟩ := all .comparators
    rw [ha, hb, hc]; exact last_fine _
  case h_22 hkd =>
    obtain ⟨a, ha⟩ := one (f := .value) (by simp [hkd, required])
    obtain ⟨b, hb⟩ := one (f := .slice) (by simp [hkd, required])
    rw [ha, hb]; exact last_fine _
  case h_23 hkd =>
    obtain ⟨a, ha⟩ := one (f := .value) (by simp [hkd, required])
    rw [ha]; exact last_fine _
  case h_24 => exact ⟨_, rfl, by simp⟩

theorem fInfos_fst {ms : Dict String String} : ∀ ks : List Node, (fInfos ms ks).map (·.1) = ks
  | [] => by simp [fInfos]
  | k :: ks => by simp [fInfos, fInfos_fst ks]

theorem fLevels_fine : ∀ {ks : List (Node × FInfo)}, (∀ k ∈ ks, ∀ x ∈ k.2.levels.flatten, FineItem x) → ∀ x ∈ (fLevels ks).flatten, FineItem x
  | [], _ => by intro x hx; simp [fLevels] at hx
  | k :: ks, h => by
    intro x hx
    unfold fLevels at hx
    rcases mem_mergeLevels.mp hx with hx | hx
    · exact h k (by simp) x hx
    · exact fLevels_fine (fun k hk => h k (by simp [hk])) x hx

/-- A tree whose texts can be extracted. -/
def Textual (n : Node) : Prop := Parsed n ∧ ¬ HasComplex n ∧ ¬ HasDictUnpack n

theorem Textual.kid {n k : Node} (h : Textual n) (hk : k ∈ n.kids) : Textual k :=
  ⟨fun m hm => h.1 m (.kid hk hm), fun ⟨m, hm, hc⟩ => h.2.1 ⟨m, .kid hk hm, hc⟩, fun ⟨m, l, hm, hc⟩ => h.2.2 ⟨m, l, .kid hk hm, hc⟩⟩

mutual
theorem fInfo_fine {ms : Dict String String} : ∀ {n : Node}, Textual n →
    Fine (fInfo ms n).res ∧ ∀ x ∈ (fInfo ms n).levels.flatten, FineItem x
  | .mk i ks, h => by
    have hks := fInfos_fine (ms := ms) (ks := ks) fun k hk => h.kid hk
    have hl : ∀ x ∈ ([fItem ms (.mk i ks) (fInfos ms ks)] :: fLevels (fInfos ms ks)).flatten, FineItem x := by
      intro x hx
      simp only [List.flatten_cons, List.mem_append, List.mem_singleton] at hx
      rcases hx with rfl | hx
      · exact fItem_fine (h.1 _ (.self _)) h.2.1 h.2.2 (fInfos_fst ks) fun k hk => (hks k hk).1
      · exact fLevels_fine (fun k hk => (hks k hk).2) x hx
    unfold fInfo
    refine ⟨?_, hl⟩
    obtain ⟨r, hr, hn⟩ := fWalk_fine hl
    dsimp only
    rw [hr]
    exact fResult_fine hn
theorem fInfos_fine {ms : Dict String String} : ∀ {ks : List Node}, (∀ k ∈ ks, Textual k) →
    ∀ k ∈ fInfos ms ks, Fine k.2.res ∧ ∀ x ∈ k.2.levels.flatten, FineItem x
  | [], _ => by intro k hk; simp [fInfos] at hk
  | k :: ks, h => by
    intro k' hk'
    unfold fInfos at hk'
    rcases List.mem_cons.mp hk' with rfl | hk'
    · exact fInfo_fine (h k (by simp))
    · exact fInfos_fine (fun k hk => h k (by simp [hk])) k' hk'
end

theorem extractFstring_fine {ms : Dict String String} {n : Node} (h : Textual n) : Fine (extractFstring ms n) := (fInfo_fine h).1

end Vermin
