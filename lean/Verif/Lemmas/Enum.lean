import Verif.Lemmas.Visitor
import Verif.Spec.Chains
/-
Conditions on programs that can be computed, for examples.
-/
namespace Vermin
open Spec

mutual
/-- All nodes of a tree -/
def Node.subs : Node → List Node
  | .mk i ks => .mk i ks :: Node.subsList ks
def Node.subsList : List Node → List Node
  | [] => []
  | k :: ks => k.subs ++ Node.subsList ks
end

theorem mem_subsList {k m : Node} : ∀ {ks : List Node}, k ∈ ks → m ∈ k.subs → m ∈ Node.subsList ks
  | [], hk, _ => by cases hk
  | x :: ks, hk, hm => by
    unfold Node.subsList
    rcases List.mem_cons.mp hk with rfl | hk
    · exact List.mem_append_left _ hm
    · exact List.mem_append_right _ (mem_subsList hk hm)

theorem mem_subs {m n : Node} (h : In m n) : m ∈ n.subs := by
  induction h with
  | self n => cases n; unfold Node.subs; exact .head _
  | kid hk _ ih =>
    rename_i n k m _
    cases n
    unfold Node.subs
    exact .tail _ (mem_subsList hk ih)

/-- The name a node binds -/
def boundAt (n : Node) : Option String :=
  match n.kind with
  | .functionDef x | .asyncFunctionDef x | .classDef x | .alias _ (some x) | .name x .store | .exceptHandler (some x) | .arg x => some x
  | _ => none

theorem binds_bound {t : Node} {x : String} (h : Binds t x) : ∃ m, In m t ∧ boundAt m = some x := by
  induction h with
  | name h => exact ⟨_, .self _, by unfold boundAt; rw [h]⟩
  | part _ _ hk _ ih =>
    obtain ⟨m, hm, hx⟩ := ih
    exact ⟨m, .kid hk hm, hx⟩

theorem mem_fields {n k : Node} {f : Fld} (h : k ∈ n.fields f) : k ∈ n.kids ∧ k.fld = f := by
  unfold Node.fields at h
  obtain ⟨h1, h2⟩ := List.mem_filter.mp h
  exact ⟨h1, of_decide_eq_true h2⟩
theorem mem_field {n k : Node} {f : Fld} (h : n.field f = some k) : k ∈ n.kids ∧ k.fld = f := by
  unfold Node.field at h
  exact ⟨List.mem_of_find?_eq_some h, by simpa using List.find?_some h⟩

theorem defines_bound {n : Node} {x : String} (h : Defines n x) : ∃ m, In m n ∧ boundAt m = some x := by
  rcases h with h | h | ⟨_, a, ha, y, h⟩ | ⟨_, t, ht, h⟩ | ⟨_, t, ht, h⟩ | ⟨_, t, ht, h⟩ | ⟨_, w, hw, t, ht, h⟩ | ⟨_, c, hc, t, ht, h⟩ | h | ⟨_, a, ha, h, _⟩
  · rcases h with h | h <;> exact ⟨n, .self n, by unfold boundAt; rw [h]⟩
  · exact ⟨n, .self n, by unfold boundAt; rw [h]⟩
  · exact ⟨a, .kid (mem_fields ha).1 (.self a), by unfold boundAt; rw [h]⟩
  · obtain ⟨m, hm, hx⟩ := binds_bound h
    exact ⟨m, .kid (mem_fields ht).1 hm, hx⟩
  · exact ⟨t, .kid (mem_field ht).1 (.self t), by unfold boundAt; rw [h]⟩
  · obtain ⟨m, hm, hx⟩ := binds_bound h
    exact ⟨m, .kid (mem_field ht).1 hm, hx⟩
  · obtain ⟨m, hm, hx⟩ := binds_bound h
    exact ⟨m, .kid (mem_fields hw).1 (.kid (mem_field ht).1 hm), hx⟩
  · obtain ⟨m, hm, hx⟩ := binds_bound h
    exact ⟨m, .kid (mem_fields hc).1 (.kid (mem_field ht).1 hm), hx⟩
  · exact ⟨n, .self n, by unfold boundAt; rw [h]⟩
  · exact ⟨a, .kid ha (.self a), by unfold boundAt; rw [h]⟩

theorem undefined_of {p : Node} {x : String} (h : (p.subs.map boundAt).contains (some x) = false) : Undefined p x := by
  intro k hk hd
  obtain ⟨m, hm, hx⟩ := defines_bound hd
  rw [List.contains_eq_mem, decide_eq_false_iff_not] at h
  exact h (List.mem_map.mpr ⟨m, mem_subs (In.trans hm hk), hx⟩)

theorem notAs_of {p : Node} {x : String} (h : (p.subs.map boundAt).contains (some x) = false) : ∀ k m, In k p → ¬ ImportsAs k m x := by
  rintro k m hk ⟨a, ha, y, hy, hi⟩
  refine undefined_of h k hk ?_
  rcases hi with ⟨hk, _⟩ | ⟨s, hk, _⟩
  · exact .inr (.inr (.inl ⟨.inl hk, a, ha, y, hy⟩))
  · exact .inr (.inr (.inl ⟨.inr ⟨s, hk⟩, a, ha, y, hy⟩))

/-- The name a node imports -/
def aliasAt (n : Node) : Option String :=
  match n.kind with
  | .alias x _ => some x
  | _ => none

theorem notFrom_of {p : Node} {x : String} (h : (p.subs.map aliasAt).contains (some x) = false) : NotFrom p x := by
  rintro k m hk ⟨_, a, ha, y, hy⟩
  rw [List.contains_eq_mem, decide_eq_false_iff_not] at h
  exact h (List.mem_map.mpr ⟨a, mem_subs (In.trans (.kid (mem_fields ha).1 (.self a)) hk), by unfold aliasAt; rw [hy]⟩)

/-- The variable a node is as a target -/
def targetAt (n : Node) : Option String :=
  match n.kind with
  | .name x _ => if n.fld = .targets ∨ n.fld = .target then some x else none
  | _ => none

theorem unassigned_of {p : Node} {x : String} (h : (p.subs.map targetAt).contains (some x) = false) : Unassigned p x := by
  rw [List.contains_eq_mem, decide_eq_false_iff_not] at h
  refine ⟨?_, ?_⟩
  · rintro k v hk ⟨_, _, t, ht, hf, c, hc⟩
    exact h (List.mem_map.mpr ⟨t, mem_subs (In.trans (.kid ht (.self t)) hk), by unfold targetAt; rw [hc]; simp [hf]⟩)
  · intro k t c hk _ ht hc
    exact h (List.mem_map.mpr ⟨t, mem_subs (In.trans (.kid (mem_field ht).1 (.self t)) hk), by unfold targetAt; rw [hc]; simp [(mem_field ht).2]⟩)

/-- The values given to the variable meet the condition. -/
def givenAt (x : String) (check : Node → Bool) (n : Node) : Bool :=
  !(n.kids.map targetAt).contains (some x) ||
    (n.kind != .for && n.kind != .asyncFor && (match n.field .value with | some v => check v | none => false))

theorem always_of {p : Node} {x y : String} (check : Node → Bool) (hc : ∀ v, check v = true → Denotes p v y) (h : p.subs.all (givenAt x check) = true) : Always p x y := by
  have key : ∀ k t, In k p → t ∈ k.kids → targetAt t = some x → k.kind ≠ .for ∧ k.kind ≠ .asyncFor ∧ ∃ v, k.field .value = some v ∧ check v = true := by
    intro k t hk ht hx
    have := List.all_eq_true.mp h k (mem_subs hk)
    unfold givenAt at this
    rw [List.contains_iff_mem.mpr (List.mem_map.mpr ⟨t, ht, hx⟩)] at this
    simp only [Bool.not_true, Bool.false_or, Bool.and_eq_true, bne_iff_ne] at this
    refine ⟨this.1.1, this.1.2, ?_⟩
    cases hv : k.field .value with
    | none => rw [hv] at this; cases this.2
    | some v => rw [hv] at this; exact ⟨v, rfl, this.2⟩
  refine ⟨?_, ?_⟩
  · rintro k v hk ⟨_, hv, t, ht, hf, c, hcn⟩
    obtain ⟨_, _, w, hw, hcw⟩ := key k t hk ht (by unfold targetAt; rw [hcn]; simp [hf])
    rw [hv] at hw
    injection hw with hw
    exact .inl (hc v (hw ▸ hcw))
  · intro k t c hk hf ht hcn
    obtain ⟨h1, h2, _⟩ := key k t hk (mem_field ht).1 (by unfold targetAt; rw [hcn]; simp [(mem_field ht).2])
    exact hf.elim h1 h2

/-- The name is imported from the module only. -/
def fromAt (x m : String) (n : Node) : Bool := !(n.kids.map aliasAt).contains (some x) || (match n.kind with | .importFrom k 0 => k == some m | _ => true)

theorem from_of {p : Node} {x m : String} (h : p.subs.all (fromAt x m) = true) : ∀ k m', In k p → ImportsFrom k m' x → m' = m := by
  rintro k m' hk ⟨h1, a, ha, y, hy⟩
  have := List.all_eq_true.mp h k (mem_subs hk)
  unfold fromAt at this
  rw [List.contains_iff_mem.mpr (List.mem_map.mpr ⟨a, (mem_fields ha).1, by unfold aliasAt; rw [hy]⟩), h1] at this
  simpa using this

/-- A call of a name -/
def callsAt (f : String) (v : Node) : Bool := v.kind == .call && (v.field .func).bind Node.nameId == some f
theorem denotes_call {p : Node} {f : String} (v : Node) (h : callsAt f v = true) : Denotes p v f := by
  unfold callsAt at h
  simp only [Bool.and_eq_true, beq_iff_eq] at h
  exact .call h

/-- Not a call of something that is neither a name nor an attribute. -/
def namedAt (n : Node) : Bool :=
  match n.kind with
  | .call =>
    match (n.field .func).map Node.kind with
    | some (.name _ _) | some (.attribute _) => true
    | _ => false
  | _ => true

theorem named_of {n : Node} (h : n.subs.all namedAt = true) : Named n := by
  rintro m hm ⟨hk, hu⟩
  have := List.all_eq_true.mp h m (mem_subs hm)
  unfold namedAt at this
  rw [hk] at this
  dsimp only at this
  cases hf : m.field .func with
  | none => rw [hf] at this; cases this
  | some f =>
    rw [hf] at this
    obtain ⟨h1, h2⟩ := hu f hf
    simp only [Option.map_some] at this
    split at this
    · rename_i h; injection h with h; exact h1 _ _ h
    · rename_i h; injection h with h; exact h2 _ h
    · cases this

/-- The parts of `n` are looked at. -/
def visitsAt (env : Env) (n k : Node) : Bool :=
  !(env.noLines.contains n.line) && k.fld != .returns &&
  match n.kind with
  | .keyword _ | .import | .importFrom _ _ | .name _ _ | .const _ | .alias _ _ | .pass | .break | .continue | .op _ | .annAssign => false
  | _ => true

theorem reach_at {env : Env} {m n k : Node} (i : Nat) (hk : n.kids[i]? = some k) (hv : visitsAt env n k = true) (h : Reach env m k) : Reach env m n := by
  unfold visitsAt at hv
  rw [Bool.and_eq_true, Bool.and_eq_true] at hv
  obtain ⟨⟨h1, h2⟩, h3⟩ := hv
  refine .kid ⟨List.mem_of_getElem? hk, fun hm => ?_, fun ho => ?_, fun hu => ?_⟩ h
  · rw [List.contains_iff_mem.mpr hm.2] at h1
    cases h1
  · unfold Opaque at ho
    revert ho h3
    cases n.kind <;> simp
  · obtain ⟨_, hu | ⟨_, hu⟩⟩ := hu
    · rw [hu] at h3; cases h3
    · rw [hu] at h2; simp at h2
theorem seen_at {env : Env} {p m n k : Node} (i : Nat) (hk : n.kids[i]? = some k) (hv : visitsAt env n k = true) (h : Seen env p m k) : Seen env p m n := by
  unfold visitsAt at hv
  rw [Bool.and_eq_true, Bool.and_eq_true] at hv
  obtain ⟨⟨h1, h2⟩, h3⟩ := hv
  refine .kid ⟨List.mem_of_getElem? hk, fun hm => ?_, fun ho => ?_, fun hu => ?_⟩ h
  · rw [List.contains_iff_mem.mpr hm.2] at h1
    cases h1
  · unfold Opaque at ho
    revert ho h3
    cases n.kind <;> simp
  · obtain ⟨_, hu | ⟨_, hu⟩⟩ := hu
    · rw [hu] at h3; cases h3
    · rw [hu] at h2; simp at h2

theorem dotless_of {p : Node} (h : p.subs.all (fun m => match boundAt m with | some x => !(x.toList.contains '.') | none => true) = true) : Dotless p := by
  intro m x hm hd hx
  obtain ⟨k, hk, hb⟩ := defines_bound hd
  have := List.all_eq_true.mp h k (mem_subs (In.trans hk hm))
  rw [hb] at this
  simp [hx] at this

end Vermin
