import Verif.Model.Rules
import Verif.Lemmas.Dict
import Verif.Lemmas.Combine
/- Lemmas for the rule tables. -/
namespace Vermin
open Py

/-- A number for a text. -/
def encChars (acc : Nat) (s : List Char) : Nat := s.foldl (fun n c => n * 1114112 + c.toNat) acc
def encStr (s : String) : Nat := encChars 1 s.toList
def encPair (p : String × String) : Nat := encChars (encChars 1 p.1.toList * 1114112) p.2.toList

/-- The characters a number stands for, prepended to `acc`. -/
def decChars : Nat → Nat → List Char → List Char
  | 0, _, acc => acc
  | fuel + 1, n, acc => bif Nat.ble n 1 then acc else decChars fuel (n / 1114112) (Char.ofNat (n % 1114112) :: acc)
def decStr (n : Nat) : String := String.ofList (decChars 100 n [])
def digitsOk : Nat → Nat → Bool
  | 0, n => Nat.beq n 1
  | fuel + 1, n => bif Nat.ble n 1 then Nat.beq n 1 else Nat.ble (n % 1114112) 55295 && digitsOk fuel (n / 1114112)
def decPair : Nat → Nat → List Char → String × String
  | 0, _, acc => ("", String.ofList acc)
  | fuel + 1, n, acc => bif Nat.beq (n % 1114112) 0 then (decStr (n / 1114112), String.ofList acc)
    else decPair fuel (n / 1114112) (Char.ofNat (n % 1114112) :: acc)
def pairOk : Nat → Nat → Bool
  | 0, _ => false
  | fuel + 1, n => bif Nat.beq (n % 1114112) 0 then digitsOk 100 (n / 1114112)
    else Nat.ble (n % 1114112) 55295 && pairOk fuel (n / 1114112)

/-- No two members are equal modulo `m`; `seen` is a bit mask. -/
def distinctMod (m : Nat) : Nat → List Nat → Bool
  | _, [] => true
  | seen, x :: xs => bif Nat.beq (Nat.land (Nat.shiftRight seen (x % m)) 1) 0 then
      distinctMod m (Nat.lor seen (Nat.shiftLeft 1 (x % m))) xs else false

theorem toNat_ofNat {n : Nat} (h : n ≤ 55295) : (Char.ofNat n).toNat = n := by
  have hv : n.isValidChar := Or.inl (by omega)
  have : n < 4294967296 := by omega
  simp [Char.ofNat, hv, Char.ofNatAux, Char.toNat, UInt32.toNat]

theorem encChars_cons (n : Nat) (c : Char) (s : List Char) :
    encChars n (c :: s) = encChars (n * 1114112 + c.toNat) s := rfl

theorem div_mod_back (n : Nat) : n / 1114112 * 1114112 + n % 1114112 = n := by omega

theorem encChars_decChars : ∀ {fuel n : Nat} {acc : List Char}, digitsOk fuel n = true →
    encChars 1 (decChars fuel n acc) = encChars n acc
  | 0, n, acc, h => by
    have h := Nat.eq_of_beq_eq_true h; subst h; rfl
  | fuel + 1, n, acc, h => by
    unfold digitsOk at h
    unfold decChars
    cases hn : Nat.ble n 1 with
    | true =>
      rw [hn] at h
      have h := Nat.eq_of_beq_eq_true h
      subst h; rfl
    | false =>
      rw [hn] at h
      simp only [cond_false, Bool.and_eq_true, Nat.ble_eq] at h ⊢
      rw [encChars_decChars h.2, encChars_cons, toNat_ofNat h.1, div_mod_back]

theorem encStr_decStr {n : Nat} (h : digitsOk 100 n = true) : encStr (decStr n) = n := by
  unfold encStr decStr; rw [String.toList_ofList, encChars_decChars h]; rfl

theorem encPair_decPair : ∀ {fuel n : Nat} {acc : List Char}, pairOk fuel n = true →
    encPair (decPair fuel n acc) = encChars n acc
  | 0, n, acc, h => by simp [pairOk] at h
  | fuel + 1, n, acc, h => by
    unfold pairOk at h
    unfold decPair
    cases hn : Nat.beq (n % 1114112) 0 with
    | true =>
      rw [hn] at h
      simp only [cond_true] at h ⊢
      have h0 : n % 1114112 = 0 := Nat.eq_of_beq_eq_true hn
      have := encStr_decStr h
      unfold encStr at this
      unfold encPair
      rw [this, String.toList_ofList]
      have e : n / 1114112 * 1114112 = n := by omega
      rw [e]
    | false =>
      rw [hn] at h
      simp only [cond_false, Bool.and_eq_true, Nat.ble_eq] at h ⊢
      rw [encPair_decPair h.2, encChars_cons, toNat_ofNat h.1, div_mod_back]

theorem distinctMod_spec {m : Nat} : ∀ {l : List Nat} {seen : Nat}, distinctMod m seen l = true →
    (∀ x ∈ l, seen.testBit (x % m) = false) ∧ l.Nodup
  | [], _, _ => ⟨by simp, List.nodup_nil⟩
  | x :: xs, seen, h => by
    unfold distinctMod at h
    cases hb : Nat.beq (Nat.land (Nat.shiftRight seen (x % m)) 1) 0 with
    | false => rw [hb] at h; simp at h
    | true =>
      rw [hb, cond_true] at h
      have hx : seen.testBit (x % m) = false := by
        have h0 : (seen >>> (x % m)) &&& 1 = 0 := Nat.eq_of_beq_eq_true hb
        rw [Nat.testBit, Nat.and_comm, h0]; rfl
      have ⟨h1, h2⟩ := distinctMod_spec h
      have h1' : ∀ y ∈ xs, seen.testBit (y % m) = false ∧ y % m ≠ x % m := by
        intro y hy
        have : (seen ||| 1 <<< (x % m)).testBit (y % m) = false := h1 y hy
        rw [Nat.testBit_or, Bool.or_eq_false_iff] at this
        refine ⟨this.1, fun e => ?_⟩
        rw [e] at this
        simp [Nat.testBit_shiftLeft] at this
      refine ⟨fun y hy => ?_, List.nodup_cons.mpr ⟨fun hm => (h1' x hm).2 rfl, h2⟩⟩
      rcases List.mem_cons.mp hy with rfl | hy
      · exact hx
      · exact (h1' y hy).1

theorem nodup_of_map {α β : Type} (f : α → β) {l : List α} (h : (l.map f).Nodup) : l.Nodup := by
  induction l with
  | nil => exact List.nodup_nil
  | cons x l ih =>
    rw [List.map_cons, List.nodup_cons] at h
    rw [List.nodup_cons]
    exact ⟨fun hm => h.1 (List.mem_map_of_mem hm), ih h.2⟩

/-- The keys of a table are distinct: its chunks' keys are decoded from numbers that are distinct. -/
theorem nodup_keys {α β : Type} (dec : Nat → α) (enc : α → Nat) (ok : Nat → Bool) (hdec : ∀ n, ok n = true → enc (dec n) = n)
    {chunks : List (List (α × β))} {codes : List (List Nat)} (he : chunks.map (·.map Prod.fst) = codes.map (·.map dec))
    (hok : codes.all (·.all ok) = true) {m : Nat} (hd : distinctMod m 0 codes.flatten = true) :
    (chunks.flatten.map Prod.fst).Nodup := by
  apply nodup_of_map enc
  have e1 : chunks.flatten.map Prod.fst = codes.flatten.map dec := by
    rw [List.map_flatten, List.map_flatten, he]
  rw [e1, List.map_map]
  have e2 : codes.flatten.map (enc ∘ dec) = codes.flatten := by
    rw [List.map_congr_left (g := id)]
    · simp
    · intro n hn
      obtain ⟨c, hc, hn⟩ := List.mem_flatten.mp hn
      exact hdec n (List.all_eq_true.mp (List.all_eq_true.mp hok c hc) n hn)
  rw [e2]; exact (distinctMod_spec hd).2

section
variable {α β : Type} [DecidableEq α]

theorem get?_foldl_set_of_not_mem {l : List (α × β)} {d : Dict α β} {k : α} (h : k ∉ l.map Prod.fst) :
    Dict.get? (l.foldl (fun d e => Dict.set d e.1 e.2) d) k = Dict.get? d k := by
  induction l generalizing d with
  | nil => rfl
  | cons e l ih =>
    rw [List.map_cons, List.mem_cons, not_or] at h
    rw [List.foldl_cons, ih h.2, Dict.get?_set_ne _ _ h.1]

theorem get?_foldl_set {l : List (α × β)} (hn : (l.map Prod.fst).Nodup) {d : Dict α β} {k : α} {v : β} :
    Dict.get? (l.foldl (fun d e => Dict.set d e.1 e.2) d) k = some v ↔
      (k, v) ∈ l ∨ (k ∉ l.map Prod.fst ∧ Dict.get? d k = some v) := by
  induction l generalizing d with
  | nil => simp
  | cons e l ih =>
    rw [List.map_cons, List.nodup_cons] at hn
    rw [List.foldl_cons, ih hn.2, Dict.get?_set]
    obtain ⟨a, b⟩ := e
    simp only [List.mem_cons, Prod.mk.injEq, List.map_cons, not_or] at *
    by_cases hk : a = k
    · subst hk
      simp only [if_true, Option.some.injEq, true_and, not_true_eq_false, false_and, or_false]
      constructor
      · rintro (h | ⟨_, h⟩)
        · exact absurd (List.mem_map_of_mem h) hn.1
        · exact Or.inl h.symm
      · rintro (h | h)
        · exact Or.inr ⟨hn.1, h.symm⟩
        · exact absurd (List.mem_map_of_mem h) hn.1
    · have hk' : ¬ k = a := fun h => hk h.symm
      simp [hk, hk']

theorem get?_dictDisplay {l : List (α × β)} (hn : (l.map Prod.fst).Nodup) (k : α) (v : β) :
    Dict.get? (dictDisplay l) k = some v ↔ (k, v) ∈ l := by
  unfold dictDisplay
  rw [get?_foldl_set hn]
  simp [Dict.get?_nil]

theorem get?_eq_of_nodup {l : List (α × β)} (hn : (l.map Prod.fst).Nodup) (k : α) (v : β) :
    Dict.get? l k = some v ↔ (k, v) ∈ l := by
  refine ⟨Dict.mem_of_get?, ?_⟩
  induction l with
  | nil => simp
  | cons e l ih =>
    rw [List.map_cons, List.nodup_cons] at hn
    intro h
    rw [Dict.get?_cons]
    rcases List.mem_cons.mp h with rfl | h
    · simp
    · have : e.1 ≠ k := by
        rintro rfl; exact hn.1 (List.mem_map.mpr ⟨_, h, rfl⟩)
      rw [if_neg this]; exact ih hn.2 h

/-- With distinct keys, looking up the list of entries is looking up the dictionary. -/
theorem get?_dictDisplay_eq {l : List (α × β)} (hn : (l.map Prod.fst).Nodup) (k : α) :
    Dict.get? (dictDisplay l) k = Dict.get? l k := by
  apply Option.ext
  intro v
  rw [get?_dictDisplay hn, get?_eq_of_nodup hn]
end

/-- All values an entry can take. -/
def RuleVal.vals : RuleVal → List Req
  | .const r => [r]
  | .bpv name dflt => (expandVersions name).map Prod.snd ++ [dflt]
  | .ifNotBp _ no yes => [yes, no]

theorem bpv_go_mem (bps : List String) (d : Req) (rs : List BackportRow) : bpv.go bps d rs ∈ rs.map Prod.snd ++ [d] := by
  induction rs with
  | nil => simp [bpv.go]
  | cons r rs ih => rw [bpv.go]; split <;> simp_all

theorem RuleVal.eval_mem (bps : List String) (v : RuleVal) : v.eval bps ∈ v.vals := by
  cases v with
  | const r => simp [eval, vals]
  | bpv n d => exact bpv_go_mem bps d _
  | ifNotBp n a b => simp only [eval, vals]; split <;> simp

/-- `a` is satisfied by every version that satisfies `b` (as a test). -/
def weakerB (a b : Req) : Bool :=
  (match b.py2 with
    | none => true
    | some m => match a.py2 with
      | none => false
      | some m' => decide (m' ≤ m)) &&
  (match b.py3 with
    | none => true
    | some m => match a.py3 with
      | none => false
      | some m' => decide (m' ≤ m))

theorem weakerB_refl (a : Req) : weakerB a a = true := by
  rcases a with ⟨_ | a, _ | b⟩ <;> simp [weakerB, Ver.le_refl]

theorem satisfies_of_weakerB {a b : Req} (h : weakerB a b = true) {v : Ver} (hv : Spec.Satisfies v b) :
    Spec.Satisfies v a := by
  rcases a with ⟨a2, a3⟩; rcases b with ⟨b2, b3⟩
  simp only [weakerB, Bool.and_eq_true] at h
  rcases hv with ⟨hm, m, hb, hle⟩ | ⟨hm, m, hb, hle⟩
  · simp only at hb; subst hb
    cases a2 with
    | none => simp at h
    | some m' => exact Or.inl ⟨hm, m', rfl, Ver.le_trans (by simpa using h.1) hle⟩
  · simp only at hb; subst hb
    cases a3 with
    | none => simp at h
    | some m' => exact Or.inr ⟨hm, m', rfl, Ver.le_trans (by simpa using h.2) hle⟩

theorem bpv_go_mono {bps bps' : List String} (hsub : ∀ x ∈ bps, x ∈ bps') (d : Req) {rs : List BackportRow}
    (hp : (rs.map Prod.snd ++ [d]).Pairwise fun a b => weakerB a b = true) :
    weakerB (bpv.go bps' d rs) (bpv.go bps d rs) = true := by
  induction rs with
  | nil => simp [bpv.go, weakerB_refl]
  | cons r rs ih =>
    rw [List.map_cons, List.cons_append, List.pairwise_cons] at hp
    by_cases h' : bp bps' r.1 = true
    · rw [bpv.go, if_pos h']
      by_cases h : bp bps r.1 = true
      · rw [bpv.go, if_pos h]; exact weakerB_refl _
      · rw [bpv.go, if_neg h]; exact hp.1 _ (bpv_go_mem _ _ _)
    · have h : ¬ bp bps r.1 = true := by
        intro hb; apply h'
        simp only [bp, List.contains_iff_mem] at *; exact hsub _ hb
      rw [bpv.go, bpv.go, if_neg h, if_neg h']; exact ih hp.2

theorem RuleVal.eval_mono {bps bps' : List String} (hsub : ∀ x ∈ bps, x ∈ bps') {v : RuleVal}
    (hp : v.vals.Pairwise fun a b => weakerB a b = true) : weakerB (v.eval bps') (v.eval bps) = true := by
  cases v with
  | const r => exact weakerB_refl _
  | bpv n d => exact bpv_go_mono hsub d hp
  | ifNotBp n a b =>
    simp only [vals, List.pairwise_cons, List.mem_singleton, forall_eq] at hp
    have hab := hp.1
    simp only [eval]
    by_cases h' : bp bps' n = true
    · by_cases h : bp bps n = true
      · simp [h, h', weakerB_refl]
      · simp only [Bool.not_eq_true] at h; simp [h, h', hab]
    · have h : ¬ bp bps n = true := by
        intro hb; apply h'
        simp only [bp, List.contains_iff_mem] at *; exact hsub _ hb
      simp only [Bool.not_eq_true] at h h'; simp [h, h', weakerB_refl]

end Vermin
