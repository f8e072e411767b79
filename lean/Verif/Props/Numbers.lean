import Verif.Model.Numbers
import Verif.Props.Floats
import Verif.Props.Strings
/-
C79: versions given as numbers to `combine_versions`.
-/
namespace Vermin.Props
open Vermin Vermin.Py Vermin.Spec

/-- A component that is None, an int, or a tuple stands for the version. -/
inductive StandsFor : Num → Option Ver → Prop
  | none : StandsFor .none none
  | int (n : Nat) : StandsFor (.int n) (some ⟨n, 0⟩)
  | tup (v : Ver) : StandsFor (.tup v) (some v)

variable {rnd : Rat → Rat}

theorem StandsFor.fixup {a : Num} {v : Option Ver} (h : StandsFor a v) : fixup rnd a = .ok v := by cases h <;> rfl
theorem StandsFor.isNone {a : Num} {v : Option Ver} (h : StandsFor a v) : a.isNone = v.isNone := by cases h <;> rfl

/-- **C79.** Combining lists of Nones, ints, and tuples gives the versions that combining with `(n, 0)` for the int `n` gives, and fails if that fails. -/
theorem C79_ints {show_ : Rat → String} {ig : Bool} {a b c d : Num} {x y : Req} (ha : StandsFor a x.py2) (hb : StandsFor b x.py3) (hc : StandsFor c y.py2)
    (hd : StandsFor d y.py3) (r : Req) :
    combineNums rnd show_ ig [a, b] [c, d] = .ok (r.py2, r.py3) ↔ combineVersions ig x y = .ok r := by
  unfold combineNums combineVersions
  dsimp only
  rw [ha.isNone, hb.isNone, hc.isNone, hd.isNone]
  have e : (x.py2.isNone && !x.py3.isNone && !y.py2.isNone && y.py3.isNone || !x.py2.isNone && x.py3.isNone && y.py2.isNone && !y.py3.isNone) =
      (x.only3 && y.only2 || x.only2 && y.only3) := by
    unfold Req.only3 Req.only2
    cases x.py2 <;> cases x.py3 <;> cases y.py2 <;> cases y.py3 <;> rfl
  rw [e]
  split
  · cases versionStrings [a.val show_, b.val show_] with
    | error e => exact ⟨nofun, nofun⟩
    | ok s =>
      cases versionStrings [c.val show_, d.val show_] with
      | error e => exact ⟨nofun, nofun⟩
      | ok t => exact ⟨nofun, nofun⟩
  · unfold combineNum
    rw [ha.fixup, hb.fixup, hc.fixup, hd.fixup]
    obtain ⟨r1, r2⟩ := r
    constructor
    · intro h; cases h; rfl
    · intro h; cases h; rfl

/-- How a version is shown: `major` is 2 or 3. -/
inductive ShownAs (show_ : Rat → String) (major : String) : Num → String → Prop
  | none : ShownAs show_ major .none ("!" ++ major)
  | zeroInt : ShownAs show_ major (.int 0) ("~" ++ major)
  | zeroFloat : ShownAs show_ major (.float 0) ("~" ++ major)
  | zeroTup : ShownAs show_ major (.tup ⟨0, 0⟩) ("~" ++ major)
  | int {n : Nat} {s : List Char} : n ≠ 0 → Decimal s n → ShownAs show_ major (.int n) (String.ofList s)
  | float {f : Rat} : f ≠ 0 → ShownAs show_ major (.float f) (show_ f)
  | tup {x y : Nat} {s t : List Char} : ⟨x, y⟩ ≠ Ver.zero → Decimal s x → Decimal t y → ShownAs show_ major (.tup ⟨x, y⟩) (String.ofList s ++ "." ++ String.ofList t)

theorem ShownAs.text {show_ : Rat → String} {major : String} {a : Num} {s : String} (h : ShownAs show_ major a s) (i : Nat) (hm : major.toList = strNat (i + 2)) :
    versionString i (a.val show_) = s.toList := by
  cases h with
  | none => simp [Num.val, versionString, VVal.isZero, hm]
  | zeroInt => simp [Num.val, versionString, VVal.isZero, hm]
  | zeroFloat => simp [Num.val, versionString, VVal.isZero, hm]
  | zeroTup => simp [Num.val, versionString, VVal.isZero, Ver.zero, hm]
  | int hn hd => simp [Num.val, versionString, VVal.isZero, hn, VVal.dotted, (C95_str _ _).mpr hd]
  | float hf => simp [Num.val, hf, versionString, VVal.isZero, VVal.dotted]
  | tup hn h1 h2 => simp [Num.val, versionString, VVal.isZero, hn, VVal.dotted, (C95_str _ _).mpr h1, (C95_str _ _).mpr h2]

/-- **C79.** The message about versions that cannot be combined shows them as they are given. -/
theorem C79_conflict {show_ : Rat → String} {a b c d : Num} {sa sb sc sd : String}
    (ha : ShownAs show_ "2" a sa) (hb : ShownAs show_ "3" b sb) (hc : ShownAs show_ "2" c sc) (hd : ShownAs show_ "3" d sd)
    (h : (a = .none ∧ b ≠ .none ∧ c ≠ .none ∧ d = .none) ∨ (a ≠ .none ∧ b = .none ∧ c = .none ∧ d ≠ .none)) :
    combineNums rnd show_ false [a, b] [c, d] =
      .error (.invalidVersion ("Versions could not be combined: " ++ (sa ++ ", " ++ sb) ++ " and " ++ (sc ++ ", " ++ sd))) := by
  have hn : ∀ x : Num, x.isNone = decide (x = .none) := fun x => by cases x <;> rfl
  have hv : ∀ {x y : Num} {sx sy : String}, ShownAs show_ "2" x sx → ShownAs show_ "3" y sy → versionStrings [x.val show_, y.val show_] = .ok (sx ++ ", " ++ sy) := by
    intro x y sx sy hx hy
    unfold versionStrings
    dsimp only
    rw [if_neg (by simp), if_neg (by simp), if_neg (by decide)]
    simp only [versionStringsFrom, hx.text 0 (by decide), hy.text 1 (by decide), join]
    congr 1
    apply String.toList_inj.mp
    simp
  unfold combineNums
  dsimp only
  rw [if_pos (by simp only [hn]; rcases h with ⟨h1, h2, h3, h4⟩ | ⟨h1, h2, h3, h4⟩ <;> simp [h1, h2, h3, h4]), hv ha hb, hv hc hd]
  rfl

/-- **C79.** A list of another length than two is refused. -/
theorem C79_length {show_ : Rat → String} {ig : Bool} {l m : List Num} (h : l.length ≠ 2 ∨ m.length ≠ 2) : combineNums rnd show_ ig l m = .error .assertion := by
  unfold combineNums
  split
  · simp at h
  · rfl

/-- **C79.** A negative float is refused. -/
theorem C79_negative {f : Rat} (h : f < 0) : floatVersion rnd f = .error .assertion := by
  unfold floatVersion
  rw [if_pos h]

theorem floor_between {q : Rat} {n : Int} (h1 : (n : Rat) ≤ q) (h2 : q < (n : Rat) + 1) : q.floor = n := by
  have a : n ≤ q.floor := Rat.le_floor_iff.2 h1
  have b : q.floor < n + 1 := by
    have := Rat.floor_le q
    have c : ((q.floor : Int) : Rat) < ((n + 1 : Int) : Rat) := by push_cast; grind
    exact_mod_cast c
  omega

/-- **C79.** A float `X.0` is the version `(X, 0)`. -/
theorem C79_whole (h : Rounding rnd) {x : Nat} (hx : x < 9007199254740992) : floatVersion rnd (rnd x) = .ok ⟨x, 0⟩ := by
  rw [h.nat x hx]
  unfold floatVersion
  rw [if_neg (by have := cast_nonneg x; grind)]
  have h0 : rnd 0 = 0 := h.nat 0 (by decide)
  have e : (x : Rat).floor = x := Rat.floor_intCast (x : Int)
  dsimp only
  rw [e, show ((x : Rat) - ((x : Int) : Rat)) = 0 by rw [show (((x : Int) : Rat)) = (x : Rat) from rfl]; grind, h0]
  rw [show (0 : Rat) * 10 = 0 by grind, h0, show (0 : Rat).floor = 0 from Rat.floor_intCast 0]
  rfl

/-- **C79 (partial).** The float nearest to `X.Y` is taken for the version `(X, Y)` or for `(X, Y - 1)`.

*Missing:* that it is taken for `(X, Y)`; see `C79_false`. -/
theorem C79_near_partial (h : Rounding rnd) {x y : Nat} (hx : x < 1048576) (h0 : 0 < y) (hy : y < 10) :
    floatVersion rnd (rnd (x + y / 10)) = .ok ⟨x, y⟩ ∨ floatVersion rnd (rnd (x + y / 10)) = .ok ⟨x, y - 1⟩ := by
  have x0 := cast_nonneg x
  have x1 : (x : Rat) < (1048576 : Nat) := cast_lt hx
  have y0 : ((1 : Nat) : Rat) ≤ y := cast_le h0
  have y1 : (y : Rat) ≤ (9 : Nat) := cast_le (by omega)
  have a1 := h.low (x + y / 10 : Rat) (by grind)
  have a2 := h.high (x + y / 10 : Rat) (by grind)
  generalize rnd (x + y / 10) = f at *
  have ef : f.floor = (x : Int) := floor_between (by rw [show (((x : Int) : Rat)) = (x : Rat) from rfl]; grind) (by rw [show (((x : Int) : Rat)) = (x : Rat) from rfl]; grind)
  unfold floatVersion
  rw [if_neg (by grind)]
  dsimp only
  rw [ef, show (((x : Int) : Rat)) = (x : Rat) from rfl]
  have b1 := h.low (f - x) (by grind)
  have b2 := h.high (f - x) (by grind)
  generalize rnd (f - x) = g at *
  have c1 := h.low (g * 10) (by grind)
  have c2 := h.high (g * 10) (by grind)
  generalize rnd (g * 10) = k at *
  have k1 : (y : Rat) - 1 / 2 ≤ k := by grind
  have k2 : k ≤ (y : Rat) + 1 / 2 := by grind
  rcases (inferInstance : Decidable ((y : Rat) ≤ k)) with n | n
  · right
    have e : k.floor = ((y - 1 : Nat) : Int) := by
      have c : (((y - 1 : Nat) : Int) : Rat) = (y : Rat) - 1 := by
        obtain ⟨z, rfl⟩ : ∃ z, y = z + 1 := ⟨y - 1, by omega⟩
        rw [show (((z + 1 - 1 : Nat) : Int) : Rat) = (z : Rat) from rfl]
        push_cast; grind
      exact floor_between (by rw [c]; grind) (by rw [c]; grind)
    rw [e]
    rfl
  · left
    have e : k.floor = (y : Int) := floor_between n (by rw [show (((y : Int) : Rat)) = (y : Rat) from rfl]; grind)
    rw [e]
    rfl

theorem binary64_half {x : Nat} (h : x < 1048576) : binary64 (x + 1 / 2) = x + 1 / 2 := by
  have e : (x : Rat) + 1 / 2 = Rat.mk' (2 * x + 1 : Nat) 2 (by decide) (by
    show Nat.Coprime (2 * x + 1) 2
    unfold Nat.Coprime
    rw [Nat.gcd_comm, Nat.gcd_rec, show (2 * x + 1) % 2 = 1 by omega]; decide) := by
    rw [Rat.mk_eq_divInt, Rat.divInt_eq_div]
    push_cast
    grind
  have hn : 2 * x + 1 ≠ 0 := by omega
  have n1 : 2 ^ (2 * x + 1).log2 ≤ 2 * x + 1 := Nat.log2_self_le hn
  have hl : (2 * x + 1).log2 < 53 := (Nat.log2_lt hn).2 (by omega)
  have ee : exponent (x + 1 / 2) = ((2 * x + 1).log2 : Int) - 1 := by
    have n2 : ((2 ^ (2 * x + 1).log2 : Nat) : Rat) ≤ ((2 * x + 1 : Nat) : Rat) := cast_le n1
    have e2 : (((x : Rat) + 1 / 2).num.toNat.log2 : Int) - (((x : Rat) + 1 / 2).den.log2 : Int) = ((2 * x + 1).log2 : Int) - 1 := by
      rw [e]
      show ((2 * x + 1).log2 : Int) - ((2 : Nat).log2 : Int) = _
      rw [show (2 : Nat).log2 = 1 by decide]
      rfl
    unfold exponent
    rw [e2]
    dsimp only
    rw [if_pos]
    rw [Rat.zpow_sub_one (by decide), Rat.zpow_natCast]
    push_cast at n2
    grind
  have x0 := cast_nonneg x
  unfold binary64
  rw [if_neg (by grind)]
  dsimp only
  obtain ⟨j, hj⟩ : ∃ j : Nat, (2 * x + 1).log2 + j = 52 := ⟨52 - (2 * x + 1).log2, by omega⟩
  rw [ee, show ((2 * x + 1).log2 : Int) - 1 - 52 = -((j + 1 : Nat) : Int) by omega]
  have hp := two_pow_pos (-((j + 1 : Nat) : Int))
  have eq : ((x : Rat) + 1 / 2) / 2 ^ (-((j + 1 : Nat) : Int)) = (((2 * x + 1) * 2 ^ j : Nat) : Int) := by
    rw [Rat.zpow_neg, Rat.div_def, Rat.inv_inv, Rat.zpow_natCast]
    rw [show (((((2 * x + 1) * 2 ^ j : Nat) : Int)) : Rat) = (((2 * x + 1) * 2 ^ j : Nat) : Rat) from rfl]
    push_cast
    grind
  have back : ((x : Rat) + 1 / 2) / 2 ^ (-((j + 1 : Nat) : Int)) * 2 ^ (-((j + 1 : Nat) : Int)) = x + 1 / 2 := Rat.div_mul_cancel (by grind)
  rw [eq] at back ⊢
  rw [roundEven_int]
  exact back

/-- **C79.** A float `X.5` is the version `(X, 5)`. -/
theorem C79_half {x : Nat} (h : x < 1048576) : floatVersion binary64 (binary64 (x + 1 / 2)) = .ok ⟨x, 5⟩ := by
  rw [binary64_half h]
  have x0 := cast_nonneg x
  unfold floatVersion
  rw [if_neg (by grind)]
  have e : ((x : Rat) + 1 / 2).floor = (x : Int) :=
    floor_between (by rw [show (((x : Int) : Rat)) = (x : Rat) from rfl]; grind) (by rw [show (((x : Int) : Rat)) = (x : Rat) from rfl]; grind)
  dsimp only
  rw [e, show (((x : Int) : Rat)) = (x : Rat) from rfl, show ((x : Rat) + 1 / 2 - x) = 1 / 2 by grind]
  rw [show (binary64 (binary64 (1 / 2) * 10)).floor = 5 by decide +kernel]
  rfl

/-- **C79** is false: the float 3.4 is taken for Python 3.3. -/
theorem C79_false : floatVersion binary64 (binary64 (3 + 4 / 10)) = .ok ⟨3, 3⟩ := by decide +kernel

/-- **C79.** Of the versions of Python that can be written as floats, 2.3, 2.4, 3.3, 3.4, and 3.8 are taken for the version before, the others are as
written. -/
theorem C79_released (x y : Nat) (h : (x = 2 ∧ y ≤ 7) ∨ (x = 3 ∧ y ≤ 9)) :
    floatVersion binary64 (binary64 (x + y / 10)) = .ok ⟨x, if (x, y) ∈ [(2, 3), (2, 4), (3, 3), (3, 4), (3, 8)] then y - 1 else y⟩ := by
  have t : ∀ x ∈ [2, 3], ∀ y ∈ List.range (if x = 2 then 8 else 10), floatVersion binary64 (binary64 ((x : Nat) + (y : Nat) / 10)) =
      .ok ⟨x, if (x, y) ∈ [(2, 3), (2, 4), (3, 3), (3, 4), (3, 8)] then y - 1 else y⟩ := by decide +kernel
  rcases h with ⟨rfl, h⟩ | ⟨rfl, h⟩
  · exact t 2 (by decide) y (by simp; omega)
  · exact t 3 (by decide) y (by simp; omega)

/-- Floats cannot tell 3.10 from 3.1. -/
theorem C79_ten : floatVersion binary64 (binary64 (3 + 10 / 100)) = .ok ⟨3, 1⟩ := by decide +kernel

/-! ### Examples -/

/-- Examples: `combine_versions([2, (3, 0)], [(2, 0), 3.1])` is `[(2, 0), (3, 1)]`, and with 3.4 it is `[(2, 0), (3, 3)]`. -/
theorem C79_witness : combineNums binary64 (fun _ => "") false [.int 2, .tup ⟨3, 0⟩] [.tup ⟨2, 0⟩, .float (binary64 (31 / 10))] = .ok (some ⟨2, 0⟩, some ⟨3, 1⟩) ∧
    combineNums binary64 (fun _ => "") false [.int 2, .tup ⟨3, 0⟩] [.tup ⟨2, 0⟩, .float (binary64 (34 / 10))] = .ok (some ⟨2, 0⟩, some ⟨3, 3⟩) ∧
    combineVersions false ⟨some ⟨2, 0⟩, some ⟨3, 0⟩⟩ ⟨some ⟨2, 0⟩, some ⟨3, 1⟩⟩ = .ok ⟨some ⟨2, 0⟩, some ⟨3, 1⟩⟩ ∧
    StandsFor (.int 2) (some ⟨2, 0⟩) ∧ Rounding binary64 := ⟨by decide +kernel, by decide +kernel, by decide +kernel, .int 2, rounding_binary64⟩

/-- Example: `combine_versions([None, 3.5], [0.0, None])` -/
theorem C79_conflict_witness : combineNums binary64 (fun _ => "3.5") false [.none, .float (7 / 2)] [.float 0, .none] =
    .error (.invalidVersion ("Versions could not be combined: " ++ ("!2" ++ ", " ++ "3.5") ++ " and " ++ ("~2" ++ ", " ++ "!3"))) :=
  C79_conflict (show_ := fun _ => "3.5") .none (.float (by decide +kernel)) .zeroFloat .none (.inl ⟨rfl, nofun, nofun, rfl⟩)

end Vermin.Props
