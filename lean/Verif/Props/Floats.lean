import Verif.Model.Floats
import Verif.Props.Texts
import Verif.Lemmas.Sort
/-
Sort keys computed with floats (C40).
-/
namespace Vermin.Props
open Vermin Vermin.Py Vermin.Spec

/-- Rounding to floats with 53 bits: the error is at most a 2^53th part, and integers with up to 53 bits are not rounded. -/
structure Rounding (rnd : Rat → Rat) : Prop where
  low : ∀ x, 0 ≤ x → x - x * (1 / 9007199254740992) ≤ rnd x
  high : ∀ x, 0 ≤ x → rnd x ≤ x + x * (1 / 9007199254740992)
  nat : ∀ n : Nat, n < 9007199254740992 → rnd n = n

theorem cast_lt {a b : Nat} (h : a < b) : (a : Rat) < b := by exact_mod_cast h
theorem cast_le {a b : Nat} (h : a ≤ b) : (a : Rat) ≤ b := by exact_mod_cast h
theorem cast_nonneg (a : Nat) : (0 : Rat) ≤ a := cast_le (Nat.zero_le a)

variable {rnd : Rat → Rat}

theorem hash_near (h : Rounding rnd) (s : List Char) : 0 ≤ rnd (hashFloat rnd s / 1000) ∧
    ((strHash s : Nat) : Rat) / 1000000000 - 1 / 1000000000000 ≤ rnd (hashFloat rnd s / 1000) ∧ rnd (hashFloat rnd s / 1000) ≤ ((strHash s : Nat) : Rat) / 1000000000 + 1 / 1000000000000 := by
  have hs := strHash_lt s
  unfold hashFloat
  rw [h.nat _ (by omega)]
  have h0 := cast_nonneg (strHash s)
  have h1 : ((strHash s : Nat) : Rat) < (1000000 : Nat) := cast_lt hs
  generalize ((strHash s : Nat) : Rat) = x at *
  have a1 := h.low (x / 1000000) (by grind)
  have a2 := h.high (x / 1000000) (by grind)
  generalize rnd (x / 1000000) = y at *
  have b0 : 0 ≤ y / 1000 := by grind
  have b1 := h.low (y / 1000) b0
  have b2 := h.high (y / 1000) b0
  generalize rnd (y / 1000) = z at *
  grind

theorem keyCol_near (h : Rounding rnd) {line col : Nat} (rest : List Char) (hl : line < 1048576) (hc : col < 1000) :
    ((line * 1000000000 + col * 1000000 + strHash rest : Nat) : Rat) - 2 / 5 ≤ keyColFloat rnd line col rest * 1000000000 ∧
    keyColFloat rnd line col rest * 1000000000 ≤ ((line * 1000000000 + col * 1000000 + strHash rest : Nat) : Rat) + 2 / 5 := by
  unfold keyColFloat
  obtain ⟨e0, e1, e2⟩ := hash_near h rest
  rw [h.nat line (by omega), h.nat col (by omega)]
  have hn : ((line * 1000000000 + col * 1000000 + strHash rest : Nat) : Rat) = line * 1000000000 + col * 1000000 + (strHash rest : Nat) := by push_cast; rfl
  rw [hn]
  have hs : ((strHash rest : Nat) : Rat) < (1000000 : Nat) := cast_lt (strHash_lt rest)
  have h0 := cast_nonneg (strHash rest)
  have l0 := cast_nonneg line
  have l1 : (line : Rat) < (1048576 : Nat) := cast_lt hl
  have c0 := cast_nonneg col
  have c1 : (col : Rat) < (1000 : Nat) := cast_lt hc
  generalize ((strHash rest : Nat) : Rat) = x at *
  generalize (line : Rat) = l at *
  generalize (col : Rat) = c at *
  generalize rnd (hashFloat rnd rest / 1000) = z at *
  have a1 := h.low (c / 1000) (by grind)
  have a2 := h.high (c / 1000) (by grind)
  generalize rnd (c / 1000) = y at *
  have b1 := h.low (l + y) (by grind)
  have b2 := h.high (l + y) (by grind)
  generalize rnd (l + y) = w at *
  have d1 := h.low (w + z) (by grind)
  have d2 := h.high (w + z) (by grind)
  generalize rnd (w + z) = v at *
  grind

/-- A column 0 does not change the key. -/
theorem keyCol_zero (h : Rounding rnd) {line : Nat} (rest : List Char) (hl : line < 1048576) : keyColFloat rnd line 0 rest = keyFloat rnd line rest := by
  unfold keyColFloat keyFloat
  have h0 : rnd (0 : Nat) = (0 : Nat) := h.nat 0 (by omega)
  have e : rnd (rnd (line : Nat) + rnd (rnd (0 : Nat) / 1000)) = rnd (line : Nat) := by
    rw [h0, show (((0 : Nat) : Rat) / 1000) = ((0 : Nat) : Rat) by grind, h0, h.nat line (by omega)]
    rw [show (line : Rat) + ((0 : Nat) : Rat) = line by grind, h.nat line (by omega)]
  rw [e]

theorem hash_key_near (h : Rounding rnd) (s : List Char) : ((strHash s * 1000 : Nat) : Rat) - 2 / 5 ≤ hashFloat rnd s * 1000000000 ∧
    hashFloat rnd s * 1000000000 ≤ ((strHash s * 1000 : Nat) : Rat) + 2 / 5 := by
  have hs := strHash_lt s
  unfold hashFloat
  rw [h.nat _ (by omega), show ((strHash s * 1000 : Nat) : Rat) = (strHash s : Nat) * 1000 by push_cast; rfl]
  have h0 := cast_nonneg (strHash s)
  have h1 : ((strHash s : Nat) : Rat) < (1000000 : Nat) := cast_lt hs
  generalize ((strHash s : Nat) : Rat) = x at *
  have a1 := h.low (x / 1000000) (by grind)
  have a2 := h.high (x / 1000000) (by grind)
  generalize rnd (x / 1000000) = y at *
  grind

/-- A position with a line from 1 to about a million and a column less than 1000. -/
def Moderate (line col : Nat) : Prop := 1 ≤ line ∧ line < 1048576 ∧ col < 1000

/-- What a key is computed from: the text as a whole, or position and text. -/
inductive KeyOf (rnd : Rat → Rat) : Nat → Rat → Prop
  | text (s : List Char) : KeyOf rnd (strHash s * 1000) (hashFloat rnd s)
  | position {line col : Nat} (rest : List Char) : Moderate line col →
      KeyOf rnd (line * 1000000000 + col * 1000000 + strHash rest) (keyColFloat rnd line col rest)

theorem KeyOf.near (h : Rounding rnd) {n : Nat} {x : Rat} (k : KeyOf rnd n x) : (n : Rat) - 2 / 5 ≤ x * 1000000000 ∧ x * 1000000000 ≤ (n : Rat) + 2 / 5 := by
  cases k with
  | text s => exact hash_key_near h s
  | position rest m => exact keyCol_near h rest m.2.1 m.2.2

theorem hashFloat_congr {s t : List Char} (h : strHash s = strHash t) : hashFloat rnd s = hashFloat rnd t := by
  unfold hashFloat; rw [h]

theorem KeyOf.eq {n : Nat} {x y : Rat} (k : KeyOf rnd n x) (l : KeyOf rnd n y) : x = y := by
  generalize hm : n = m at l
  cases k with
  | text s =>
    cases l with
    | text t => exact hashFloat_congr (by omega)
    | position t m => have := strHash_lt s; have := m.1; omega
  | @position l1 c1 s m1 =>
    cases l with
    | text t => have := strHash_lt t; have := m1.1; omega
    | @position l2 c2 t m2 =>
      have := strHash_lt s
      have := strHash_lt t
      have := m1.2.2
      have := m2.2.2
      have e1 : l1 = l2 := by omega
      have e2 : c1 = c2 := by omega
      have e3 : strHash s = strHash t := by omega
      subst e1 e2
      unfold keyColFloat
      rw [hashFloat_congr e3]

/-- Float keys and exact keys are in the same order. -/
theorem KeyOf.le_iff (h : Rounding rnd) {n m : Nat} {x y : Rat} (k : KeyOf rnd n x) (l : KeyOf rnd m y) : x ≤ y ↔ n ≤ m := by
  obtain ⟨a1, a2⟩ := k.near h
  obtain ⟨b1, b2⟩ := l.near h
  rcases Nat.lt_trichotomy n m with c | c | c
  · have d : ((n + 1 : Nat) : Rat) ≤ m := cast_le c
    rw [show ((n + 1 : Nat) : Rat) = n + 1 by push_cast; rfl] at d
    constructor
    · intro; omega
    · intro; grind
  · subst c
    rw [k.eq l]
    simp [Rat.le_refl]
  · have d : ((m + 1 : Nat) : Rat) ≤ n := cast_le c
    rw [show ((m + 1 : Nat) : Rat) = m + 1 by push_cast; rfl] at d
    constructor
    · intro; grind
    · intro; omega

/-- The line has no position, or a moderate one. -/
def ModerateLine (s : List Char) : Prop := ∀ line col rest, matchLineCol s = some (line, col, rest) → Moderate line (col.getD 0)

/-- The same in the parsable format. -/
def ModerateParsable (s : List Char) : Prop := ∀ line col rest, matchParsable s = some (line, col, rest) → Moderate line col

theorem keyOf_line (h : Rounding rnd) {s : List Char} (m : ModerateLine s) : KeyOf rnd (sortLineColumn s) (sortLineColumnFloat rnd s) := by
  unfold sortLineColumn sortLineColumnFloat
  match e : matchLineCol s with
  | none => exact .text s
  | some (line, none, rest) =>
    have m := m _ _ _ e
    dsimp only
    rw [← keyCol_zero h rest m.2.1]
    simpa using KeyOf.position (rnd := rnd) rest m
  | some (line, some col, rest) => exact .position rest (m _ _ _ e)

theorem keyOf_parsable (h : Rounding rnd) {s : List Char} (m : ModerateParsable s) : KeyOf rnd (sortLineColumnParsable s) (sortLineColumnParsableFloat rnd s) := by
  unfold sortLineColumnParsable sortLineColumnParsableFloat
  match e : matchParsable s with
  | none => exact .text s
  | some (line, col, rest) =>
    have m := m _ _ _ e
    dsimp only
    split
    · rename_i e; subst e
      rw [← keyCol_zero h rest m.2.1]
      exact KeyOf.position rest m
    · exact .position rest m

theorem insertSorted_congr {α : Type} {le le' : α → α → Bool} {x : α} {l : List α} (h : ∀ y ∈ l, le x y = le' x y) : insertSorted le x l = insertSorted le' x l := by
  induction l with
  | nil => rfl
  | cons y ys ih =>
    unfold insertSorted
    rw [h y (by simp), ih fun z hz => h z (by simp [hz])]

theorem sort_congr {α : Type} {le le' : α → α → Bool} {l : List α} (h : ∀ x ∈ l, ∀ y ∈ l, le x y = le' x y) : sort le l = sort le' l := by
  induction l with
  | nil => rfl
  | cons x xs ih =>
    unfold sort
    rw [ih fun a ha b hb => h a (by simp [ha]) b (by simp [hb])]
    exact insertSorted_congr fun y hy => h x (by simp) y (by simp [mem_sort.1 hy])

/-- **C40**: sorting with keys that are floats gives the same lines in the same order as sorting with the exact keys, which the other theorems are about,
if positions are moderate. -/
theorem C40_floats (h : Rounding rnd) (cfg : Config) {lines : List String}
    (hd : cfg.format = .default → ∀ s ∈ lines, ModerateLine s.toList) (hp : cfg.format = .parsable → ∀ s ∈ lines, ModerateParsable s.toList) :
    sortOutputLinesFloat rnd cfg lines = sortOutputLines cfg lines := by
  unfold sortOutputLinesFloat sortOutputLines
  match e : cfg.format with
  | .default =>
    dsimp only
    split
    · refine sort_congr fun x hx y hy => ?_
      rw [decide_eq_decide]
      exact (keyOf_line h (hd e x hx)).le_iff h (keyOf_line h (hd e y hy))
    · rfl
  | .parsable =>
    refine sort_congr fun x hx y hy => ?_
    rw [decide_eq_decide]
    exact (keyOf_parsable h (hp e x hx)).le_iff h (keyOf_parsable h (hp e y hy))

/-- **C40**: keys that are floats order texts `L<line> C<col>: ..` by line, column and hash. -/
theorem C40_float_default (h : Rounding rnd) {l1 c1 l2 c2 : Nat} (r1 r2 : List Char) (m1 : Moderate l1 c1) (m2 : Moderate l2 c2) :
    sortLineColumnFloat rnd (lineColText l1 c1 r1) < sortLineColumnFloat rnd (lineColText l2 c2 r2) ↔
      PosLt l1 c1 (strHash (untilNewline r1)) l2 c2 (strHash (untilNewline r2)) := by
  have k {l c : Nat} (r : List Char) (m : Moderate l c) : ModerateLine (lineColText l c r) := by
    intro _ _ _ e
    rw [matchLineCol_text] at e
    cases e
    exact m
  rw [← C40_default_partial _ _ _ _ _ _ m1.2.2 m2.2.2, ← Nat.not_le, ← Rat.not_le,
    (keyOf_line h (k r2 m2)).le_iff h (keyOf_line h (k r1 m1))]

/-- **C40**: the same in the parsable format. -/
theorem C40_float_parsable (h : Rounding rnd) {p1 p2 : List Char} (hp1 : ∀ c ∈ p1, c ≠ ':' ∧ c ≠ '\n') (hp2 : ∀ c ∈ p2, c ≠ ':' ∧ c ≠ '\n')
    {l1 c1 l2 c2 : Nat} (r1 r2 : List Char) (m1 : Moderate l1 c1) (m2 : Moderate l2 c2) :
    sortLineColumnParsableFloat rnd (parsableText p1 l1 c1 r1) < sortLineColumnParsableFloat rnd (parsableText p2 l2 c2 r2) ↔
      PosLt l1 c1 (strHash (untilNewline r1)) l2 c2 (strHash (untilNewline r2)) := by
  have k {p : List Char} {l c : Nat} (hp : ∀ c ∈ p, c ≠ ':' ∧ c ≠ '\n') (r : List Char) (m : Moderate l c) : ModerateParsable (parsableText p l c r) := by
    intro _ _ _ e
    rw [matchParsable_text hp] at e
    cases e
    exact m
  rw [← C40_parsable_partial hp1 hp2 _ _ _ _ _ _ m1.2.2 m2.2.2, ← Nat.not_le, ← Rat.not_le,
    (keyOf_parsable h (k hp2 r2 m2)).le_iff h (keyOf_parsable h (k hp1 r1 m1))]

/-! ### Rounding of IEEE 754 -/

theorem roundEven_near (q : Rat) : q - 1 / 2 ≤ roundEven q ∧ (roundEven q : Rat) ≤ q + 1 / 2 := by
  have h1 : (q.floor : Rat) ≤ q := Rat.floor_le q
  have h2 : q < (q.floor : Rat) + 1 := by have := Rat.lt_floor_add_one q; push_cast at this; exact this
  unfold roundEven
  split
  · grind
  · split
    · push_cast; grind
    · split
      · grind
      · push_cast; grind

theorem roundEven_int (n : Int) : roundEven n = n := by
  unfold roundEven
  rw [Rat.floor_intCast, if_pos (by grind)]

/-- **C40**, the rounding that is assumed: the nearest integer, and of two that are equally near the even one. -/
theorem C40_rounding (q : Rat) (n : Int) :
    roundEven q = n ↔ (q - 1 / 2 < n ∧ (n : Rat) < q + 1 / 2) ∨ (n % 2 = 0 ∧ ((n : Rat) = q - 1 / 2 ∨ (n : Rat) = q + 1 / 2)) := by
  have h1 : (q.floor : Rat) ≤ q := Rat.floor_le q
  have h2 : q < (q.floor : Rat) + 1 := by have := Rat.lt_floor_add_one q; push_cast at this; exact this
  have key : ∀ {a b : Int}, (a : Rat) < b ↔ a < b := by intro a b; exact Rat.intCast_lt_intCast
  have keq : ∀ {a b : Int}, (a : Rat) = b ↔ a = b := by intro a b; exact Rat.intCast_inj
  have near : ∀ m : Int, (q - 1 / 2 ≤ m ∧ (m : Rat) ≤ q + 1 / 2) → m = q.floor ∨ m = q.floor + 1 := by
    intro m ⟨a, b⟩
    have x1 : ((q.floor - 1 : Int) : Rat) < m := by push_cast; grind
    have x2 : (m : Rat) < ((q.floor + 2 : Int) : Rat) := by push_cast; grind
    rw [key] at x1 x2
    omega
  unfold roundEven
  constructor
  · rintro rfl
    split
    · left; grind
    · split
      · left; push_cast; grind
      · split
        · right; refine ⟨by assumption, ?_⟩; grind
        · right; refine ⟨by omega, ?_⟩; push_cast; grind
  · intro h
    have hn := near n (by grind)
    rcases hn with rfl | rfl
    · split
      · rfl
      · split
        · exfalso; grind
        · split
          · rfl
          · exfalso; grind
    · push_cast at h
      split
      · exfalso; grind
      · split
        · rfl
        · split
          · exfalso
            have : ¬ (q.floor + 1) % 2 = 0 := by omega
            grind
          · rfl

theorem two_pow_pos (k : Int) : (0 : Rat) < 2 ^ k := Rat.zpow_pos (by decide)

theorem exponent_le {x : Rat} (h : 0 < x) : (2 : Rat) ^ exponent x ≤ x := by
  unfold exponent
  dsimp only
  split
  · assumption
  · have hn : 0 < x.num := by
      have a : 0 ≤ x.num := Rat.num_nonneg.2 (Rat.le_of_lt h)
      have b : x.num ≠ 0 := fun e => by rw [Rat.num_eq_zero] at e; grind
      omega
    have n1 : (2 : Nat) ^ x.num.toNat.log2 ≤ x.num.toNat := Nat.log2_self_le (by omega)
    have d1 : x.den < 2 ^ (x.den.log2 + 1) := Nat.lt_log2_self
    have d0 : (0 : Rat) < (x.den : Rat) := by exact_mod_cast x.den_pos
    have e1 : x * (x.den : Rat) = (x.num.toNat : Rat) := by
      have : (x.num.toNat : Rat) = (x.num : Rat) := by rw [show (x.num.toNat : Rat) = ((x.num.toNat : Int) : Rat) by rfl, Int.toNat_of_nonneg (by omega)]
      rw [this]
      have : (x.num : Rat) / (x.den : Rat) = x := by
        have := Rat.num_divInt_den x
        rw [Rat.divInt_eq_div] at this
        exact this
      have q : (x.num : Rat) / (x.den : Rat) * (x.den : Rat) = x.num := Rat.div_mul_cancel (by grind)
      rw [this] at q
      exact q
    generalize x.num.toNat = n at *
    generalize x.den = d at *
    generalize n.log2 = a at *
    generalize d.log2 = b at *
    have n2 : ((2 ^ a : Nat) : Rat) ≤ n := cast_le n1
    have d2 : (d : Rat) < ((2 ^ (b + 1) : Nat) : Rat) := cast_lt d1
    rw [show ((2 ^ a : Nat) : Rat) = (2 : Rat) ^ (a : Int) by push_cast; rfl] at n2
    rw [show ((2 ^ (b + 1) : Nat) : Rat) = (2 : Rat) ^ ((b + 1 : Nat) : Int) by push_cast; rfl] at d2
    have e2 : (2 : Rat) ^ ((a : Int) - b - 1) * 2 ^ ((b + 1 : Nat) : Int) = 2 ^ (a : Int) := by
      rw [← Rat.zpow_add (by decide)]
      congr 1
      omega
    have p0 := two_pow_pos ((a : Int) - b - 1)
    generalize (2 : Rat) ^ ((a : Int) - b - 1) = p at *
    have m : p * (d : Rat) ≤ p * 2 ^ ((b + 1 : Nat) : Int) := Rat.mul_le_mul_of_nonneg_left (by grind) (by grind)
    have m2 : p * (d : Rat) ≤ x * d := by grind
    exact Rat.le_of_mul_le_mul_right m2 d0

theorem binary64_near {x : Rat} (h : 0 ≤ x) : x - x * (1 / 9007199254740992) ≤ binary64 x ∧ binary64 x ≤ x + x * (1 / 9007199254740992) := by
  unfold binary64
  split
  · grind
  · have hx : 0 < x := by grind
    have he := exponent_le hx
    dsimp only
    have hu := two_pow_pos (exponent x - 52)
    have e : (2 : Rat) ^ exponent x = 2 ^ (exponent x - 52) * 4503599627370496 := by
      rw [show (4503599627370496 : Rat) = 2 ^ (52 : Int) by decide +kernel, ← Rat.zpow_add (by decide)]
      congr 1
      omega
    rw [e] at he
    generalize (2 : Rat) ^ (exponent x - 52) = u at *
    obtain ⟨r1, r2⟩ := roundEven_near (x / u)
    generalize (roundEven (x / u) : Rat) = r at *
    have q : x / u * u = x := Rat.div_mul_cancel (by grind)
    generalize x / u = y at *
    subst q
    have m1 : (y - 1 / 2) * u ≤ r * u := Rat.mul_le_mul_of_nonneg_right r1 (by grind)
    have m2 : r * u ≤ (y + 1 / 2) * u := Rat.mul_le_mul_of_nonneg_right r2 (by grind)
    grind

theorem binary64_nat {n : Nat} (h : n < 9007199254740992) : binary64 n = n := by
  unfold binary64
  split
  · rename_i h0
    have : (n : Rat) = 0 := Rat.le_antisymm h0 (cast_nonneg n)
    exact this.symm
  · rename_i h0
    have hn : n ≠ 0 := by rintro rfl; exact h0 (by decide)
    have n1 : 2 ^ n.log2 ≤ n := Nat.log2_self_le hn
    have e : exponent n = n.log2 := by
      unfold exponent
      have n2 : ((2 ^ n.log2 : Nat) : Rat) ≤ n := cast_le n1
      have e2 : (((n : Rat).num.toNat.log2 : Int) - ((n : Rat).den.log2 : Int)) = n.log2 := by simp [show Nat.log2 1 = 0 by decide]
      rw [e2]
      dsimp only
      rw [if_pos]
      rw [Rat.zpow_natCast]
      push_cast at n2
      exact n2
    have hl : n.log2 < 53 := (Nat.log2_lt hn).2 h
    obtain ⟨j, hj⟩ : ∃ j : Nat, n.log2 + j = 52 := ⟨52 - n.log2, by omega⟩
    have ej : exponent n - 52 = -(j : Int) := by omega
    dsimp only
    rw [ej]
    have hp := two_pow_pos (-(j : Int))
    have eq : (n : Rat) / 2 ^ (-(j : Int)) = ((n * 2 ^ j : Nat) : Int) := by
      rw [Rat.zpow_neg, Rat.div_def, Rat.inv_inv, Rat.zpow_natCast]
      push_cast
      rfl
    have back : (n : Rat) / 2 ^ (-(j : Int)) * 2 ^ (-(j : Int)) = n := Rat.div_mul_cancel (by grind)
    rw [eq] at back ⊢
    rw [roundEven_int]
    exact back

/-- Rounding to the nearest float, ties to even, is as `Rounding` says. -/
theorem rounding_binary64 : Rounding binary64 where
  low _ h := (binary64_near h).1
  high _ h := (binary64_near h).2
  nat _ h := binary64_nat h

/-- The theorems above with the rounding of IEEE 754: two findings on a line are shown in the order of their columns, before those of the next line. -/
theorem C40_float_witness : Rounding binary64 ∧ Moderate 12 3 ∧ Moderate 12 40 ∧
    sortOutputLinesFloat binary64 { Config.init 1 with verbose := 3 } ["L13 C1: a", "L12 C40: b", "L12 C3: c"] = ["L12 C3: c", "L12 C40: b", "L13 C1: a"] ∧
    binary64 (1 / 10) ≠ 1 / 10 :=
  ⟨rounding_binary64, by unfold Moderate; decide, by unfold Moderate; decide, by decide +kernel, by decide +kernel⟩

/-- **C40** is false with floats as well: column 1500 of line 1 comes after column 1 of line 2. -/
theorem C40_float_false : sortLineColumnFloat binary64 (lineColText 2 1 " x".toList) < sortLineColumnFloat binary64 (lineColText 1 1500 " x".toList) := by
  decide +kernel

end Vermin.Props
