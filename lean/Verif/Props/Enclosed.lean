import Verif.Lemmas.Enclosed
import Verif.Props.Parts
import Verif.Props.History
import Verif.Props.Flow
/-
C110: the last statements of a program moved into a function.
-/
namespace Vermin.Props
open Vermin Vermin.Py Vermin.Spec Vermin.V

theorem splitOn_undotted : ∀ l : List Char, '.' ∉ l → splitOn (· == '.') l = [l]
  | [], _ => rfl
  | c :: l, h => by
    have hc : (c == '.') = false := by simpa using fun e => h (by simp [e])
    rw [splitOn, splitOn_undotted l fun h' => h (by simp [h'])]
    simp [hc]

theorem hasWord_self {x : String} (h : '.' ∉ x.toList) : HasWord x x := by
  unfold HasWord
  rw [splitOn_undotted _ h]
  simp

theorem newName_foreign {E : Prop} {name : String} {ks : List Node} (hn : NewName name ks) (hE : E → ∀ k ∈ ks, ∀ n, In n k → ∀ x ∈ n.kind.ownNames, '.' ∉ x.toList) :
    ∀ k ∈ ks, Foreign (FreeOf (· = name)) (fun _ => False) E k := fun k hk m hm =>
  ⟨fun x hx w hw e => hn.unused k hk m hm x hx (e ▸ hw), fun _ => id, fun e x hx => hE e k hk m hm x hx⟩

theorem newName_apart {name : String} {ks : List Node} (hn : NewName name ks) : Apart (FreeOf (· = name)) := freeOf_apart fun w hw e => hn.other (e ▸ hw)

theorem newName_not {name : String} {ks : List Node} (hn : NewName name ks) : ¬ FreeOf (· = name) name := fun h => h name (hasWord_self hn.single) rfl

/-- **C110.** If minimum versions are detected for a program whose last statement is a function without parameters that is not used, then they are also detected
for the program that has the body of the function in its place, and every interpreter that satisfies the former satisfies the latter. -/
theorem C110_function (c : Config) (h : Host) (path : String) (toks : List Tok) (hp : Printable c path) (ho : ∀ l, (h.order l).Perm l)
    {j : Info} (hj : j.kind = .module) (pre l : List Node) {name : String} {i a : Info} (he : Encloses (Env.make c h path toks) name i a l)
    (hn : NewName name (pre ++ l)) (m : Req) (hm : detectSource c h path (.mk j (pre ++ [enclosed i a l])) toks = .ok m) :
    ∃ m0, detectSource c h path (.mk j (pre ++ l)) toks = .ok m0 ∧ ∀ v, Satisfies v m → Satisfies v m0 := by
  let c0 : Config := { c with printVisits := false }
  have hp0 : Printable c0 path := hp
  have he0 : Encloses (Env.make c0 h path toks) name i a l := ⟨he.function, he.parameters, he.body, he.line, he.undirected⟩
  obtain ⟨m1, hm1, e1⟩ := (detect_quiet c h path toks hp _).1 m hm
  obtain ⟨_, t, t', ht, hv⟩ := (detect_ok_iff c0 h path _ toks m1).mp hm1
  have hk := tour_enclosed (env := Env.make c0 h path toks) (E := False) (newName_apart hn) rfl hp0.1 False.elim ho he0 (newName_not hn)
    (newName_foreign hn False.elim) hj
  rw [ht] at hk
  cases hu : tour (Env.make c0 h path toks) (.mk j (pre ++ l)) S.init with
  | error e => rw [hu] at hk; exact hk.elim
  | ok u =>
    rw [hu] at hk
    obtain ⟨u', m0, hm0, e0⟩ := minimum_kept hp0 hk.1 hv
    obtain ⟨m2, hm2, e2⟩ := (detect_quiet c h path toks hp _).2 m0 ((detect_ok_iff c0 h path _ toks m0).mpr ⟨hp0.goodPath, u, u', hu, hm0⟩)
    exact ⟨m2, hm2, fun v hs => (e2 v).mp (e0 v ((e1 v).mp hs))⟩

/-- **C110.** If no name that the statements define is that of a module or member for which there is a rule, nothing is excluded, and names are single, then the
same is detected for both programs. -/
theorem C110_same (c : Config) (h : Host) (path : String) (toks : List Tok) (hp : Printable c path) (ho : ∀ l, (h.order l).Perm l) (hx : c.exclusions = [])
    {j : Info} (hj : j.kind = .module) (pre l : List Node) {name : String} {i a : Info} (he : Encloses (Env.make c h path toks) name i a l)
    (hn : NewName name (pre ++ l)) (h1 : ∀ k ∈ pre ++ l, ∀ n, In n k → ∀ x ∈ n.kind.ownNames, '.' ∉ x.toList)
    (hd : ∀ k ∈ pre ++ l, ∀ n, In n k → ∀ x, Defines n x → (Tables.std c).mod x = none ∧ (Tables.std c).mem x = none) :
    (∀ m, detectSource c h path (.mk j (pre ++ [enclosed i a l])) toks = .ok m →
      ∃ m0, detectSource c h path (.mk j (pre ++ l)) toks = .ok m0 ∧ ∀ v, Satisfies v m ↔ Satisfies v m0) ∧
    ∀ m0, detectSource c h path (.mk j (pre ++ l)) toks = .ok m0 → ∃ m, detectSource c h path (.mk j (pre ++ [enclosed i a l])) toks = .ok m := by
  let c0 : Config := { c with printVisits := false }
  have hp0 : Printable c0 path := hp
  have he0 : Encloses (Env.make c0 h path toks) name i a l := ⟨he.function, he.parameters, he.body, he.line, he.undirected⟩
  have hk := tour_enclosed (env := Env.make c0 h path toks) (E := True) (newName_apart hn) rfl hp0.1 (fun _ x h => by have h : x ∈ c.exclusions := h; rw [hx] at h; cases h) ho he0
    (newName_not hn) (newName_foreign hn fun _ => h1) hj
  have back : ∀ {u t : S}, tour (Env.make c0 h path toks) (.mk j (pre ++ l)) S.init = .ok u →
      Gains True { S.init with modules := u.userDefs, members := u.userDefs } u t → ∀ r, Requires (Env.make c0 h path toks) t r → Requires (Env.make c0 h path toks) u r := fun {u t} hu hg r hr => by
    have hl := C29_learnt _ _ _ hu
    have hnone : ∀ x ∈ u.userDefs, (Tables.std c).mod x = none ∧ (Tables.std c).mem x = none := fun x hx' => by
      obtain ⟨n, hn', hdef⟩ := hl.defs x hx'
      cases hn' with
      | self =>
        unfold Defines DefinesFunction at hdef
        rw [show (Node.mk j (pre ++ l)).kind = .module from hj] at hdef
        simp at hdef
      | kid hk' hn' => exact hd _ hk' n hn' x hdef
    refine (requires_gained hg hr).elim id fun hr => ?_
    exfalso
    cases hr with
    | feature hf _ => cases hf
    | strftime hd _ => cases hd
    | bytesDir hd _ => cases hd
    | typecode hd _ => cases hd
    | errorHandler hd _ => cases hd
    | encoding hd _ _ => cases hd
    | module hd ht => exact absurd ((hnone _ hd).1.symm.trans ht) nofun
    | member hd ht => exact absurd ((hnone _ hd).2.symm.trans ht) nofun
    | kwarg hd _ => cases hd
    | decorator hd _ => cases hd
  refine ⟨fun m hm => ?_, fun m0 hm0 => ?_⟩
  · obtain ⟨m1, hm1, e1⟩ := (detect_quiet c h path toks hp _).1 m hm
    obtain ⟨_, t, t', ht, hv⟩ := (detect_ok_iff c0 h path _ toks m1).mp hm1
    rw [ht] at hk
    cases hu : tour (Env.make c0 h path toks) (.mk j (pre ++ l)) S.init with
    | error e => rw [hu] at hk; exact hk.elim
    | ok u =>
      rw [hu] at hk
      obtain ⟨u', m0, hm0, _⟩ := minimum_kept hp0 hk.1 hv
      obtain ⟨m2, hm2, e2⟩ := (detect_quiet c h path toks hp _).2 m0 ((detect_ok_iff c0 h path _ toks m0).mpr ⟨hp0.goodPath, u, u', hu, hm0⟩)
      refine ⟨m2, hm2, fun v => ?_⟩
      rw [e1 v, ← e2 v, C32_satisfies hv v, C32_satisfies hm0 v]
      exact ⟨fun ⟨a, b⟩ => ⟨a, fun r hr => b r (requires_kept hk.1 hr)⟩, fun ⟨a, b⟩ => ⟨a, fun r hr => b r (back hu hk.2 r hr)⟩⟩
  · obtain ⟨m1, hm1, e1⟩ := (detect_quiet c h path toks hp _).1 m0 hm0
    obtain ⟨_, u, u', hu, hv⟩ := (detect_ok_iff c0 h path _ toks m1).mp hm1
    rw [hu] at hk
    cases ht : tour (Env.make c0 h path toks) (.mk j (pre ++ [enclosed i a l])) S.init with
    | error e => rw [ht] at hk; exact hk.elim
    | ok t =>
      rw [ht] at hk
      have henc' := encodings_ok (std_text c0) hv
      have henc : EncodingsOk t := fun k hk' => (hk.2.encsIn trivial k hk').elim (henc' k) nofun
      cases hw : minimumVersions (Env.make c0 h path toks) t with
      | error e =>
        obtain ⟨hz, ⟨x, hx1, hx2⟩, y, hy1, hy2⟩ := (C32_raises_std (env := Env.make c0 h path toks) (s := t) rfl hp0.1 henc).1.mp ⟨e, hw⟩
        obtain ⟨e', hw'⟩ := (C32_raises_std (env := Env.make c0 h path toks) (s := u) rfl hp0.1 henc').1.mpr
          ⟨hz, ⟨x, back hu hk.2 x hx1, hx2⟩, y, back hu hk.2 y hy1, hy2⟩
        rw [hv] at hw'
        cases hw'
      | ok x =>
        obtain ⟨t', m⟩ := x
        obtain ⟨m', hm', _⟩ := (detect_quiet c h path toks hp _).2 m ((detect_ok_iff c0 h path _ toks m).mpr ⟨hp0.goodPath, t, t', ht, hw⟩)
        exact ⟨m', hm'⟩

/-! Examples -/

/-- Where `def f():` is, on line 1 -/
def functionInfo (name : String) : Info := (nd .body (.functionDef name) 1 []).info
def noParameters : Info := (nd .args .arguments 1 []).info

/-- Statements in a function of a file `a.py` -/
theorem encloses_example (name : String) (l : List Node) (hl : ∀ k ∈ l, k.fld = .body) :
    Encloses (Env.make (Config.init 1) exampleHost "a.py" []) name (functionInfo name) noParameters l where
  function := rfl
  parameters := ⟨rfl, rfl⟩
  body := hl
  line := ⟨1, rfl, by decide⟩
  undirected _ _ h := absurd h (by decide)

theorem newName_of {name : String} {ks : List Node} (h1 : '.' ∉ name.toList) (h2 : name ∉ valueWords)
    (h3 : ∀ x ∈ identifiersOf ks, ¬ name.toList ∈ splitOn (· == '.') x.toList) : NewName name ks :=
  ⟨h1, fun _ hk _ hn x hx => h3 x (List.mem_flatMap.mpr ⟨_, hk, List.mem_flatMap.mpr ⟨_, walk_mem hn, hx⟩⟩), h2⟩

theorem example_defines : ∀ k ∈ [importArgparse] ++ [assignFstring], ∀ n, In n k → ∀ x, Defines n x → x = "x" := fun k hk n hn x hd => by
  obtain ⟨m, hm, hx⟩ := defines_bound hd
  have hall : ∀ o ∈ ([importArgparse] ++ [assignFstring]).flatMap fun k => k.subs.map boundAt, o = none ∨ o = some "x" := by decide
  rcases hall _ (List.mem_flatMap.mpr ⟨k, hk, List.mem_map.mpr ⟨m, mem_subs (In.trans hm hn), hx⟩⟩) with h | h <;> cases h
  rfl

/-- Example: an import, and a function with an f-string.  With the f-string outside the function the same is required. -/
theorem C110_witness : Encloses (Env.make (Config.init 1) exampleHost "a.py" []) "f" (functionInfo "f") noParameters [assignFstring] ∧
    NewName "f" ([importArgparse] ++ [assignFstring]) ∧
    (∀ k ∈ [importArgparse] ++ [assignFstring], ∀ n, In n k → ∀ x, Defines n x → (Tables.std (Config.init 1)).mod x = none ∧ (Tables.std (Config.init 1)).mem x = none) ∧
    requirement (Config.init 1) (prog ([importArgparse] ++ [enclosed (functionInfo "f") noParameters [assignFstring]])) = some ⟨none, some ⟨3, 6⟩⟩ ∧
    requirement (Config.init 1) (prog ([importArgparse] ++ [assignFstring])) = some ⟨none, some ⟨3, 6⟩⟩ := by
  refine ⟨encloses_example _ _ (by decide), newName_of (by decide) (by decide) (by decide), fun k hk n hn x hd => ?_, by decide +kernel, by decide +kernel⟩
  rw [example_defines k hk n hn x hd, std_mod, std_mem]
  exact ⟨by decide +kernel, by decide +kernel⟩

/-- More may be required in the function: a name that is defined after the import of the module of the same name is known only within the function. -/
theorem C110_rises : NewName "f" [importArgparse, nd .body .assign 2 [nd .targets (.name "argparse" .store) 2 [], nm .value "x" 2]] ∧
    requirement (Config.init 1) (prog [importArgparse, nd .body .assign 2 [nd .targets (.name "argparse" .store) 2 [], nm .value "x" 2]]) =
      some ⟨some ⟨0, 0⟩, some ⟨0, 0⟩⟩ ∧
    requirement (Config.init 1) (prog [enclosed (functionInfo "f") noParameters
      [importArgparse, nd .body .assign 2 [nd .targets (.name "argparse" .store) 2 [], nm .value "x" 2]]]) = some ⟨some ⟨2, 7⟩, some ⟨3, 2⟩⟩ :=
  ⟨newName_of (by decide) (by decide) (by decide), by decide +kernel, by decide +kernel⟩

/-- Why the name of the function is a new one: a module of the same name is not found. -/
theorem C110_false_names : requirement (Config.init 1) (prog [importArgparse]) = some ⟨some ⟨2, 7⟩, some ⟨3, 2⟩⟩ ∧
    requirement (Config.init 1) (prog [enclosed (functionInfo "argparse") noParameters [importArgparse]]) = some ⟨some ⟨0, 0⟩, some ⟨0, 0⟩⟩ := by decide +kernel

/-- Why `__dir__` and `__getattr__` of a file `__init__.py` are left out: they are found only where they are not in another function. -/
theorem C110_false_dir : findsDir (prog [dirFunc]) = some true ∧
    findsDir (prog [enclosed (functionInfo "f") noParameters [dirFunc]]) = some false := by decide +kernel

end Vermin.Props
