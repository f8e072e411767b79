import Verif.Lemmas.Safe
import Verif.Props.Display
/-
C36: the analysis of parsed source does not crash.
-/
namespace Vermin.Props
open Vermin Vermin.Py Vermin.Spec Vermin.V

/-- The encodings found are strings. -/
def StringEncodings (s : S) : Prop := ∀ c ∈ s.codecsEnc, ∃ t, c = .str t

/-- **C36 (visit).** The visit of any parsed program does not raise, if (1) constants given to `.strftime` or `.strptime` are strings,
(2) annotations of parameters have no complex numbers, (3) with the feature "fstring-self-doc", expressions in f-strings have
neither complex numbers nor `**` in dicts, and (4) targets are given when only violations are shown. -/
theorem C36_visit (env : Env) (root : Node) (hp : Parsed root) (ht : Tame env root)
    (hv : env.cfg.onlyShowViolations = true → env.cfg.targets ≠ []) (s : S) : ∃ t, tour env root s = .ok t := tour_total hv hp ht s

theorem minimum_safe {env : Env} (h : TargetsOk env) {s : S} (he : StringEncodings s) :
    ∀ e, verdict ((minimumVersions env s).map (·.2)) ≠ .crash e := by
  intro e
  cases hm : minimumVersions env s with
  | ok x => exact nofun
  | error e' =>
    intro hx
    have := minimumVersions_safe h he hm
    cases e' with
    | invalidVersion m => cases hx
    | _ => exact this fun msg => nofun

/-- **C36 (partial).** The analysis of such a program ends with minimum versions or reports incompatible versions.  Not covered:
programs that give constants other than strings as encodings to functions of `codecs`, for which it does crash (`C36_false_encoding`). -/
theorem C36_detect_partial (c : Config) (h : Host) (path : String) (node : Node) (toks : List Tok) (hp : Parsed node)
    (ht : Tame (Env.make c h path toks) node) (hpr : Printable c path)
    (he : ∀ s, tour (Env.make c h path toks) node S.init = .ok s → StringEncodings s) (e : Err) :
    verdict (detectSource c h path node toks) ≠ .crash e := by
  have hv : TargetsOk (Env.make c h path toks) := hpr.1
  obtain ⟨s, hs⟩ := C36_visit (Env.make c h path toks) node hp ht hpr.1 S.init
  have hes := he s hs
  unfold detectSource visitSource
  rw [hpr.goodPath]
  simp only [Bool.false_eq_true, if_false, hs]
  have h1 := minimum_safe hv hes e
  cases hm : minimumVersions (Env.make c h path toks) s with
  | error e' => rw [hm] at h1; exact h1
  | ok x =>
    obtain ⟨t, r⟩ := x
    have hes' : StringEncodings t := by
      rcases minimumVersions_spec (Env.make c h path toks) s with ⟨e, he, _⟩ | ⟨m, s', _, hm', hf⟩ | ⟨e, msg, _, he⟩
      · rw [hm] at he; cases he
      · rw [hm] at hm'
        injection hm' with hm'
        injection hm' with ht hr
        rw [ht, hf]; exact hes
      · rw [hm] at he; cases he
    have h2 := minimum_safe hv hes' e
    dsimp only
    cases hm2 : minimumVersions (Env.make c h path toks) t with
    | error e' => rw [hm2] at h2; exact h2
    | ok y => exact nofun

/-! ### Where it is false -/

/-- `x.strftime(1)` -/
def strftimeInt : Node := prog [st 1 (nd .value .call 1 [nd .func (.attribute "strftime") 1 [nm .value "x"], nd .args (.const (.int 1)) 1 []])]
theorem C36_false_strftime : tour (exampleEnv (Config.init 1)) strftimeInt S.init = .error .typeError := by decide +kernel

/-- `def f(x: 1j): pass` -/
def complexAnnotation : Node :=
  prog [nd .body (.functionDef "f") 1 [nd .args .arguments 1 [nd .args (.arg "x") 1 [nd .annotation (.const (.complex "1j")) 1 []]],
    nd .body .pass 1 []]]
theorem C36_false_annotation : tour (exampleEnv (Config.init 1)) complexAnnotation S.init = .error .indexError := by decide +kernel

/-- `f"{ {**a} }"` -/
def unpackFstring : Node := prog [st 1 (nd .value .joinedStr 1 [nd .values (.const (.str "=")) 1 [],
  nd .values .formattedValue 1 [nd .value (.dict [true]) 1 [nm .values "a"]]])]
theorem C36_false_fstring :
    tour (exampleEnv { Config.init 1 with features := ["fstring-self-doc"] }) unpackFstring S.init = .error .attributeError := by decide +kernel

/-- Encodings in the tables -/
def codecsEnv : Env := { exampleEnv (Config.init 1) with
  tables := { (exampleEnv (Config.init 1)).tables with encodingsIndices := fun f => if f = "codecs.open" then some [2] else none } }
/-- `codecs.open(p, "r", None)` -/
def openNone : Node := prog [nd .body .import 1 [nd .names (.alias "codecs" none) 1 []], st 2 (nd .value .call 2
  [nd .func (.attribute "open") 2 [nm .value "codecs" 2], nm .args "p" 2, nd .args (.const (.str "r")) 2 [], nd .args (.const .none) 2 []])]
theorem C36_false_encoding :
    (tour codecsEnv openNone S.init).bind (fun s => (minimumVersions codecsEnv s).map (·.2)) = .error .attributeError := by decide +kernel

/-- Example: `x.strftime("%d")` is tame; its analysis yields minimum versions. -/
def strftimeStr : Node := prog [st 1 (nd .value .call 1 [nd .func (.attribute "strftime") 1 [nm .value "x"], nd .args (.const (.str "%d")) 1 []])]
theorem C36_witness : Parsed strftimeStr ∧ Tame (exampleEnv (Config.init 1)) strftimeStr ∧
    (tour (exampleEnv (Config.init 1)) strftimeStr S.init).map (fun s => (s.strftime, s.codecsEnc)) = .ok (["d"], []) := by
  have all : ∀ m, In m strftimeStr → m = strftimeStr ∨ m.kind = .expr ∨ m.kind = .attribute "strftime" ∨ m.kind = .name "x" .load ∨
      m.kind = .const (.str "%d") ∨ m = nd .value .call 1 [nd .func (.attribute "strftime") 1 [nm .value "x"], nd .args (.const (.str "%d")) 1 []] := by
    intro m hm
    cases hm with
    | self => exact .inl rfl
    | kid hk hm =>
      cases List.mem_singleton.mp hk
      cases hm with
      | self => exact .inr (.inl rfl)
      | kid hk hm =>
        cases List.mem_singleton.mp hk
        cases hm with
        | self => exact .inr (.inr (.inr (.inr (.inr rfl))))
        | kid hk hm =>
          rcases List.mem_cons.mp hk with rfl | hk
          · cases hm with
            | self => exact .inr (.inr (.inl rfl))
            | kid hk hm =>
              cases List.mem_singleton.mp hk
              cases hm with
              | self => exact .inr (.inr (.inr (.inl rfl)))
              | kid hk hm => cases hk
          · cases List.mem_singleton.mp hk
            cases hm with
            | self => exact .inr (.inr (.inr (.inr (.inl rfl))))
            | kid hk hm => cases hk
  have kinds : ∀ m, In m strftimeStr → m.kind = .module ∨ m.kind = .expr ∨ m.kind = .attribute "strftime" ∨ m.kind = .name "x" .load ∨
      m.kind = .const (.str "%d") ∨ m.kind = .call := by
    intro m hm
    rcases all m hm with rfl | h | h | h | h | rfl
    · exact .inl rfl
    · exact .inr (.inl h)
    · exact .inr (.inr (.inl h))
    · exact .inr (.inr (.inr (.inl h)))
    · exact .inr (.inr (.inr (.inr (.inl h))))
    · exact .inr (.inr (.inr (.inr (.inr rfl))))
  refine ⟨fun m hm => ⟨?_, ?_, ?_⟩, ⟨?_, ?_, ?_⟩, by decide +kernel⟩
  · rcases all m hm with rfl | h | h | h | h | rfl <;> intro f hf
    · cases hf
    · rw [h] at hf; cases hf
    · rw [h] at hf; cases hf
    · rw [h] at hf; cases hf
    · rw [h] at hf; cases hf
    · cases List.mem_singleton.mp hf; decide +kernel
  · intro l hl; rcases kinds m hm with h | h | h | h | h | h <;> rw [h] at hl <;> cases hl
  · intro l hl; rcases kinds m hm with h | h | h | h | h | h <;> rw [h] at hl <;> cases hl
  · intro m hm f a c hk hf _ ha hc
    rcases all m hm with rfl | h | h | h | h | rfl
    · cases hk
    · rw [h] at hk; cases hk
    · rw [h] at hk; cases hk
    · rw [h] at hk; cases hk
    · rw [h] at hk; cases hk
    · have : a = nd .args (.const (.str "%d")) 1 [] := List.mem_singleton.mp ha
      subst this
      cases hc
      exact ⟨_, rfl⟩
  · rintro m hm ⟨x, h' | h'⟩ <;> rcases kinds m hm with h | h | h | h | h | h <;> rw [h] at h' <;> cases h'
  · intro m hm _ h'
    rcases kinds m hm with h | h | h | h | h | h <;> rw [h] at h' <;> cases h'

end Vermin.Props
