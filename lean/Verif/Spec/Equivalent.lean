import Verif.Spec.Harmless
import Verif.Spec.Renamed
import Verif.Spec.Flow
import Verif.Spec.Pruned
import Verif.Spec.OldTrees
import Verif.Model.Program
/-
Specification of files that say the same, and of runs over such files.
-/
namespace Vermin.Spec
open Vermin

/-- A file as it is analysed: its text and the order of sets in the process, its program, and its tokens. -/
structure Given where
  host : Host
  node : Node
  toks : List Tok

/-- Files that say the same, as far as Vermin with these options is concerned: the closure of the changes that are harmless one by one. -/
inductive SaysSame (c : Config) (path : String) : Given → Given → Prop
  | refl (x) : SaysSame c path x x
  | symm {x y} : SaysSame c path x y → SaysSame c path y x
  | trans {x y z} : SaysSame c path x y → SaysSame c path y z → SaysSame c path x z
  /-- sets are enumerated in another order -/
  | ordered {h h' : Host} {n : Node} {toks : List Tok} : (∀ l, (h.order l).Perm l) → (∀ l, (h'.order l).Perm l) → h'.source = h.source → h'.dump = h.dump →
      SaysSame c path ⟨h, n, toks⟩ ⟨h', n, toks⟩
  /-- other lines, columns and comments, and more harmless statements -/
  | padded {h h' : Host} {n m : Node} {toks toks' : List Tok} (g : Layout) : h'.order = h.order → (∀ u v, g.uid u = g.uid v → u = v) →
      (∀ k, In k n → SameSource (Env.make c h path toks) (Env.make c h' path toks') k (k.moved g)) → Padded (n.moved g) m →
      SaysSame c path ⟨h, n, toks⟩ ⟨h', m, toks'⟩
  /-- more harmless statements, in the same lines -/
  | more {h : Host} {n m : Node} {toks : List Tok} : Padded n m → SaysSame c path ⟨h, n, toks⟩ ⟨h, m, toks⟩
  /-- other names that mean nothing -/
  | renamed {h : Host} {n : Node} {toks : List Tok} (ρ : String → String) : Renaming c ρ → (∀ x ∈ backportModules, ρ x = x) → (∀ l, (h.order l).Perm l) →
      "fstring-self-doc" ∉ c.features → SaysSame c path ⟨h, n, toks⟩ ⟨h, n.renamed ρ, toks⟩
  /-- without marked statements -/
  | pruned {h : Host} {n m : Node} {toks : List Tok} : Pruned (Env.make c h path toks) n m → SaysSame c path ⟨h, n, toks⟩ ⟨h, m, toks⟩
  /-- other annotations, which are not evaluated -/
  | reannotated {h : Host} {n m : Node} {toks : List Tok} : c.evalAnnotations = false → Reannotated false n m → SaysSame c path ⟨h, n, toks⟩ ⟨h, m, toks⟩
  /-- another flow of control -/
  | flow {h : Host} {i : Info} {l m : List Node} {toks : List Tok} : i.kind = .module → (∀ k ∈ l ++ m, k.fld = .body) → SameFlow (Env.make c h path toks) l m →
      SaysSame c path ⟨h, .mk i l, toks⟩ ⟨h, .mk i m, toks⟩
  /-- parsed by Python 3.8 or by 3.9 -/
  | old {h : Host} {n : Node} {toks : List Tok} : Old n → SaysSame c path ⟨h, n, toks⟩ ⟨h, modern n, toks⟩

/-- Results of a file that differ in text and excluded lines only; the text that tells why a file is incompatible by itself is the same. -/
def Retold : FileOut → FileOut → Prop
  | .error e, .error e' => e = e'
  | .ok none, .ok none => True
  | .ok (some r), .ok (some r') => ∃ t l, r' = { r with text := t, novermin := l } ∧ (r.mins = none → t = r.text)
  | _, _ => False

/-- The outcomes of reading a file in two worlds say the same. -/
inductive ReadsSame (c : Config) (path : String) : Host → ParseOut → Host → ParseOut → Prop
  | ok {h h' : Host} {n n' : Node} {toks toks' : List Tok} : SaysSame c path ⟨h, n, toks⟩ ⟨h', n', toks'⟩ → ReadsSame c path h (.ok n toks) h' (.ok n' toks')
  | same {h h' : Host} (p : ParseOut) : h'.major = h.major → (∀ n toks, p ≠ .ok n toks) → ReadsSame c path h p h' p

/-- Both files have comments that exclude lines, or neither has. -/
def MarkedSame : ParseOut → ParseOut → Prop
  | .ok _ toks, .ok _ toks' => comments toks = [] ↔ comments toks' = []
  | _, _ => True

/-- Runs that end the same way. -/
def EndsSame : Outcome → Outcome → Prop
  | .stopped s, .stopped s' => s = s'
  | .unfinished, .unfinished => True
  | .raised e, .raised e' => e = e'
  | .exit _ _ code, .exit _ _ code' => code = code'
  | _, _ => False

end Vermin.Spec
