import Verif.Props.Beside
/-
C107: programs of any number of unrelated parts, in any order.
-/
namespace Vermin.Props
open Vermin Vermin.Py Vermin.Spec Vermin.V

theorem unrelated_flatten {ps qs : List Node} {L : List (List Node)} (h : ∀ rs ∈ qs :: L, Unrelated ps rs) : Unrelated ps (qs :: L).flatten := by
  have h0 := h qs (List.mem_cons_self ..)
  have get : ∀ {k : Node}, k ∈ (qs :: L).flatten → ∃ rs, k ∈ rs ∧ Unrelated ps rs := fun hk =>
    let ⟨rs, hr, hk⟩ := List.mem_flatten.mp hk
    ⟨rs, hk, h rs hr⟩
  exact {
    names := fun k hk => let ⟨_, hk, h⟩ := get hk; h.names k hk
    values := h0.values
    aliases := h0.aliases
    objects := fun k hk => let ⟨_, hk, h⟩ := get hk; h.objects k hk
    modules := fun k hk => let ⟨_, hk, h⟩ := get hk; h.modules k hk
    others := h0.others
    single := fun k hk => let ⟨_, hk, h⟩ := get hk; h.single k hk }

theorem strangers_flatten {ps : List Node} {L : List (List Node)} (h : ∀ rs ∈ L, Strangers rs ps) : Strangers L.flatten ps := by
  have get : ∀ {w}, Taken L.flatten w → ∃ rs, Taken rs w ∧ Strangers rs ps := fun ⟨k, hk, r⟩ =>
    let ⟨rs, hr, hk⟩ := List.mem_flatten.mp hk
    ⟨rs, ⟨k, hk, r⟩, h rs hr⟩
  exact {
    names := fun k hk n hn x hx w hw ht => let ⟨_, ht, h⟩ := get ht; h.names k hk n hn x hx w hw ht
    values := fun w hw ht => let ⟨_, ht, h⟩ := get ht; h.values w hw ht
    aliases := fun k hk => let ⟨rs, hr, hk⟩ := List.mem_flatten.mp hk; (h rs hr).aliases k hk
    objects := fun k hk n hn he l hl => let ⟨rs, hr, hl⟩ := List.mem_flatten.mp hl; (h rs hr).objects k hk n hn he l hl }

/-- **C107.** If the statements of a program fall into any number of parts, none of which uses names that another gives a meaning to, and none that an
earlier one imports, then minimum versions detected for it are exactly those detected for the parts: they are satisfied by those interpreters that satisfy
all of them.  They are detected if they are for all parts and some interpreter satisfies all. -/
theorem C107_many (c : Config) (h : Host) (path : String) (toks : List Tok) (hp : Printable c path) (ho : ∀ l, (h.order l).Perm l) (hx : c.exclusions = [])
    {i : Info} (hi : i.kind = .module) : ∀ (L : List (List Node)), L ≠ [] → (L.Pairwise fun ps qs => Unrelated ps qs ∧ Strangers qs ps) →
    (∀ m, detectSource c h path (.mk i L.flatten) toks = .ok m → (∀ ps ∈ L, ∃ m', detectSource c h path (.mk i ps) toks = .ok m') ∧
      ∀ v, Satisfies v m ↔ ∀ ps ∈ L, ∀ m', detectSource c h path (.mk i ps) toks = .ok m' → Satisfies v m') ∧
    ((∀ ps ∈ L, ∃ m', detectSource c h path (.mk i ps) toks = .ok m') →
      (∃ v, ∀ ps ∈ L, ∀ m', detectSource c h path (.mk i ps) toks = .ok m' → Satisfies v m') → ∃ m, detectSource c h path (.mk i L.flatten) toks = .ok m)
  | [], h0, _ => absurd rfl h0
  | [ps], _, _ => by
    rw [List.flatten_cons, List.flatten_nil, List.append_nil]
    refine ⟨fun m hm => ⟨fun qs hq => ?_, fun v => ⟨fun hv qs hq m' hm' => ?_, fun hv => hv ps (List.mem_singleton.mpr rfl) m hm⟩⟩,
      fun hd _ => hd ps (List.mem_singleton.mpr rfl)⟩
    · exact List.mem_singleton.mp hq ▸ ⟨m, hm⟩
    · rw [List.mem_singleton.mp hq, hm] at hm'
      cases hm'
      exact hv
  | ps :: qs :: L, _, hL => by
    obtain ⟨h1, h2⟩ := List.pairwise_cons.mp hL
    obtain ⟨a1, a2⟩ := C107_many c h path toks hp ho hx hi (qs :: L) (by simp) h2
    obtain ⟨b1, b2⟩ := C106_parts c h path toks hp ho hx hi ps (qs :: L).flatten (unrelated_flatten fun rs hr => (h1 rs hr).1)
      (strangers_flatten fun rs hr => (h1 rs hr).2)
    rw [List.flatten_cons]
    refine ⟨fun m hm => ?_, fun hd ⟨v, hv⟩ => ?_⟩
    · obtain ⟨m1, m2, e1, e2, hb⟩ := b1 m hm
      obtain ⟨a3, a4⟩ := a1 m2 e2
      refine ⟨fun rs hr => ?_, fun v => ?_⟩
      · rcases List.mem_cons.mp hr with rfl | hr
        · exact ⟨m1, e1⟩
        · exact a3 rs hr
      · rw [hb v, a4 v]
        refine ⟨fun ⟨k1, k2⟩ rs hr m' hm' => ?_, fun k => ⟨k ps (List.mem_cons_self ..) m1 e1, fun rs hr => k rs (List.mem_cons_of_mem _ hr)⟩⟩
        rcases List.mem_cons.mp hr with rfl | hr
        · rw [e1] at hm'; cases hm'; exact k1
        · exact k2 rs hr m' hm'
    · obtain ⟨m1, e1⟩ := hd ps (List.mem_cons_self ..)
      obtain ⟨m2, e2⟩ := a2 (fun rs hr => hd rs (List.mem_cons_of_mem _ hr)) ⟨v, fun rs hr => hv rs (List.mem_cons_of_mem _ hr)⟩
      exact b2 m1 m2 e1 e2 ⟨v, hv ps (List.mem_cons_self ..) m1 e1, ((a1 m2 e2).2 v).mpr fun rs hr => hv rs (List.mem_cons_of_mem _ hr)⟩

/-- **C107 (order).** The order of parts does not matter, if none uses names that another gives a meaning to or imports. -/
theorem C107_order (c : Config) (h : Host) (path : String) (toks : List Tok) (hp : Printable c path) (ho : ∀ l, (h.order l).Perm l) (hx : c.exclusions = [])
    {i : Info} (hi : i.kind = .module) (L L' : List (List Node)) (hp' : L.Perm L') (hL : L.Pairwise fun ps qs => Unrelated ps qs ∧ Unrelated qs ps) (m : Req)
    (hm : detectSource c h path (.mk i L.flatten) toks = .ok m) (hs : ∃ v, Satisfies v m) :
    ∃ m', detectSource c h path (.mk i L'.flatten) toks = .ok m' ∧ ∀ v, Satisfies v m ↔ Satisfies v m' := by
  by_cases h0 : L = []
  · subst h0
    rw [List.nil_perm.mp hp']
    exact ⟨m, hm, fun _ => .rfl⟩
  have h0' : L' ≠ [] := fun e => h0 (List.perm_nil.mp (e ▸ hp'))
  have hL' : L'.Pairwise fun ps qs => Unrelated ps qs ∧ Unrelated qs ps := (hp'.pairwise_iff fun h => h.symm).mp hL
  obtain ⟨a1, _⟩ := C107_many c h path toks hp ho hx hi L h0 (hL.imp fun h => ⟨h.1, h.2.toStrangers⟩)
  obtain ⟨b1, b2⟩ := C107_many c h path toks hp ho hx hi L' h0' (hL'.imp fun h => ⟨h.1, h.2.toStrangers⟩)
  obtain ⟨a3, a4⟩ := a1 m hm
  obtain ⟨v, hv⟩ := hs
  obtain ⟨m', hm'⟩ := b2 (fun ps hps => a3 ps (hp'.mem_iff.mpr hps)) ⟨v, fun ps hps => (a4 v).mp hv ps (hp'.mem_iff.mpr hps)⟩
  refine ⟨m', hm', fun v => ?_⟩
  rw [a4 v, (b1 m' hm').2 v]
  exact ⟨fun k ps hps => k ps (hp'.mem_iff.mpr hps), fun k ps hps => k ps (hp'.mem_iff.mp hps)⟩

/-- Example: the f-string and the import in both orders. -/
theorem C107_witness : ([[assignFstring], [importArgparse]].Pairwise fun ps qs => Unrelated ps qs ∧ Unrelated qs ps) ∧
    [[assignFstring], [importArgparse]].Perm [[importArgparse], [assignFstring]] ∧
    requirement (Config.init 1) (prog [[assignFstring], [importArgparse]].flatten) = some ⟨none, some ⟨3, 6⟩⟩ ∧
    requirement (Config.init 1) (prog [[importArgparse], [assignFstring]].flatten) = some ⟨none, some ⟨3, 6⟩⟩ := by
  refine ⟨List.pairwise_cons.mpr ⟨fun qs hq => ?_, List.pairwise_cons.mpr ⟨nofun, .nil⟩⟩, List.Perm.swap .., by decide +kernel, by decide +kernel⟩
  obtain rfl := List.mem_singleton.mp hq
  refine ⟨C106_witness.1, unrelated_of_identifiers example_apart.2 (fun k hk => example_aliases k (by simp [List.mem_singleton.mp hk]))
    (fun k hk n hn he => absurd he (example_objects k (by simp [List.mem_singleton.mp hk]) n hn)) (fun k hk n hn x hx => ?_)⟩
  have : x ∈ [assignFstring].flatMap fun k => (walk k).flatMap fun n => n.kind.ownNames :=
    List.mem_flatMap.mpr ⟨k, hk, List.mem_flatMap.mpr ⟨n, walk_mem hn, hx⟩⟩
  obtain rfl := List.mem_singleton.mp this
  decide

/-- Why the order matters otherwise: `f = a.x` before `import long as a` and after it. -/
theorem C107_false_order :
    requirement (Config.init 1) (prog ([nd .body .assign 1 [nd .targets (.name "f" .store) 1 [], nd .value (.attribute "x") 1 [nm .value "a" 1]]] ++
      [nd .body .import 2 [nd .names (.alias "long" (some "a")) 2 []]])) = some ⟨some ⟨0, 0⟩, some ⟨0, 0⟩⟩ ∧
    requirement (Config.init 1) (prog ([nd .body .import 2 [nd .names (.alias "long" (some "a")) 2 []]] ++
      [nd .body .assign 1 [nd .targets (.name "f" .store) 1 [], nd .value (.attribute "x") 1 [nm .value "a" 1]]])) = some ⟨some ⟨2, 5⟩, none⟩ := by
  decide +kernel

end Vermin.Props
