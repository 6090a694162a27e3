import Verif.Model.StringUtils
import Verif.Spec.Hex
import Mathlib.Tactic.IntervalCases
import Mathlib.Tactic.Linarith
import Mathlib.Tactic.Ring
import Mathlib.Tactic.LinearCombination
import Mathlib.Tactic.Positivity

/-! C03, C04: hexadecimal formatting and parsing. -/

namespace Mcu.Props

open Mcu.ColorUtils Mcu.StringUtils Mcu.Spec

/-! ### Digits -/

theorem toDigit16_eq (c : Char) : toDigit16 c = (digitValue c).map Int.ofNat := by
  by_cases h : c.toNat < 128
  · have key : ∀ n < 128, toDigit16 (Char.ofNat n) = (digitValue (Char.ofNat n)).map Int.ofNat := by
      decide +kernel
    have := key c.toNat h
    rwa [Char.ofNat_toNat] at this
  · have lt (d : Char) (hd : d.toNat < 128) : ¬ c ≤ d := by
      intro hc
      have : c.toNat ≤ d.toNat := hc
      omega
    have ne (d : Char) (hd : d.toNat < 128) : (d == c) = false := by
      rw [beq_eq_false_iff_ne]; rintro rfl; omega
    have h1 := lt '9' (by decide)
    have h2 := lt 'f' (by decide)
    have h3 := lt 'F' (by decide)
    have t1 : "0123456789abcdef".toList.idxOf? c = none := by
      rw [List.idxOf?_eq_none_iff]
      intro hm
      have : ∀ d ∈ "0123456789abcdef".toList, d.toNat < 128 := by decide
      exact h (this c hm)
    have t2 : "0123456789ABCDEF".toList.idxOf? c = none := by
      rw [List.idxOf?_eq_none_iff]
      intro hm
      have : ∀ d ∈ "0123456789ABCDEF".toList, d.toNat < 128 := by decide
      exact h (this c hm)
    simp only [toDigit16, h1, h2, h3, and_false, if_false, digitValue, t1, t2]
    rfl

/-- Horner evaluation used by the loop. -/
def horner (n : Nat) (vs : List Nat) : Nat := vs.foldl (fun a d => a * 16 + d) n

theorem horner_eq (n : Nat) (vs : List Nat) : horner n vs = n * 16 ^ vs.length + positional vs := by
  induction vs generalizing n with
  | nil => simp [horner, positional]
  | cons d ds ih =>
    have : horner n (d :: ds) = horner (n * 16 + d) ds := rfl
    rw [this, ih, positional, List.length_cons, pow_succ]; ring

theorem horner_ge (n : Nat) (vs : List Nat) : n ≤ horner n vs := by
  rw [horner_eq]
  have : 1 ≤ 16 ^ vs.length := Nat.one_le_pow _ _ (by decide)
  nlinarith

theorem parseLoop_iff (positive : Bool) (cs : List Char) (n : Nat) (v : Int)
    (hn : InI64 ((if positive then 1 else -1) * (n : Int))) :
    parseLoop positive ((if positive then 1 else -1) * (n : Int)) cs = some v ↔
      ∃ vs, cs.mapM digitValue = some vs ∧ v = (if positive then 1 else -1) * (horner n vs : Int) ∧
        InI64 v := by
  induction cs generalizing n with
  | nil =>
    simp only [parseLoop, List.mapM_nil, pure, Option.some.injEq]
    constructor
    · rintro rfl; exact ⟨[], rfl, rfl, hn⟩
    · rintro ⟨vs, rfl, h, -⟩; exact h.symm
  | cons c cs ih =>
    rw [parseLoop, toDigit16_eq, List.mapM_cons]
    cases hd : digitValue c with
    | none =>
      simp only [Option.map_none, Option.bind_eq_bind, Option.bind_none, Option.bind_fun_none]
      simp
    | some d =>
      have hvs : ∀ vs, (cs.mapM digitValue).bind (fun a => some (d :: a)) = some vs ↔
          ∃ ws, cs.mapM digitValue = some ws ∧ vs = d :: ws := by
        intro vs; cases cs.mapM digitValue <;> simp [eq_comm]
      simp only [Option.map_some, Option.bind_eq_bind, Option.bind_some, pure, hvs]
      have hh : ∀ ws, horner n (d :: ws) = horner (n * 16 + d) ws := fun _ => rfl
      unfold checkedI64
      by_cases b : InI64 ((if positive then 1 else -1) * ((n * 16 + d : Nat) : Int))
      · have b1 : -9223372036854775808 ≤ (if positive then 1 else -1) * (n : Int) * 16 ∧
            (if positive then 1 else -1) * (n : Int) * 16 ≤ 9223372036854775807 := by
          cases positive <;> simp [InI64] at b ⊢ <;> omega
        have e : (if positive = true then (if positive then 1 else -1) * (n : Int) * 16 + Int.ofNat d
            else (if positive then 1 else -1) * (n : Int) * 16 - Int.ofNat d) =
            (if positive then 1 else -1) * ((n * 16 + d : Nat) : Int) := by
          cases positive
          · simp; ring
          · simp
        have b2 : -9223372036854775808 ≤ (if positive then 1 else -1) * ((n * 16 + d : Nat) : Int) ∧
            (if positive then 1 else -1) * ((n * 16 + d : Nat) : Int) ≤ 9223372036854775807 := by
          cases positive <;> simp [InI64] at b ⊢ <;> omega
        rw [if_pos b1, Option.bind_some, e, if_pos b2, Option.bind_some, ih _ b]
        constructor
        · rintro ⟨vs, h1, h2, h3⟩; exact ⟨d :: vs, ⟨vs, h1, rfl⟩, h2, h3⟩
        · rintro ⟨_, ⟨vs, h1, rfl⟩, h2, h3⟩; exact ⟨vs, h1, h2, h3⟩
      · constructor
        · intro h
          exfalso
          rw [Option.bind_eq_some_iff] at h
          obtain ⟨a1, q1, h⟩ := h
          rw [Option.bind_eq_some_iff] at h
          obtain ⟨a2, q2, -⟩ := h
          obtain ⟨-, q1⟩ := Option.ite_none_right_eq_some.1 q1
          obtain ⟨q2, -⟩ := Option.ite_none_right_eq_some.1 q2
          have q1 := Option.some.inj q1
          apply b
          cases positive <;> simp [InI64] at q1 q2 ⊢ <;> omega
        · rintro ⟨_, ⟨vs, h1, rfl⟩, h2, h3⟩
          exfalso
          have hg := horner_ge (n * 16 + d) vs
          rw [hh] at h2
          apply b
          cases positive <;> simp [InI64] at h2 h3 ⊢ <;> omega

theorem horner_zero (vs : List Nat) : horner 0 vs = positional vs := by
  rw [horner_eq]; simp

theorem digitValue_plus : digitValue '+' = none := by decide
theorem digitValue_minus : digitValue '-' = none := by decide
theorem digitValue_hash : digitValue '#' = none := by decide

theorem mapM_cons_none (c : Char) (cs : List Char) (vs : List Nat) (h : digitValue c = none) :
    (c :: cs).mapM digitValue ≠ some vs := by
  rw [List.mapM_cons, h]; simp

theorem numeral_plain {cs : List Char} {v : Int} (h0 : cs ≠ []) (h1 : cs.head? ≠ some '+')
    (h2 : cs.head? ≠ some '-') :
    (HexNumeral cs v ↔ ∃ vs, cs.mapM digitValue = some vs ∧ v = positional vs) := by
  constructor
  · rintro (⟨_, vs, ne, h⟩ | ⟨_, vs, ne, h⟩ | ⟨_, vs, ne, h⟩)
    · exact ⟨vs, h, rfl⟩
    · simp at h1
    · simp at h2
  · rintro ⟨vs, h, rfl⟩; exact .plain cs vs h0 h

theorem numeral_plus {cs : List Char} {v : Int} :
    (HexNumeral ('+' :: cs) v ↔ cs ≠ [] ∧ ∃ vs, cs.mapM digitValue = some vs ∧ v = positional vs) := by
  constructor
  · intro h
    generalize hs : '+' :: cs = s at h
    rcases h with ⟨_, vs, ne, h⟩ | ⟨_, vs, ne, h⟩ | ⟨_, vs, ne, h⟩
    · subst hs; exact absurd h (mapM_cons_none _ _ _ digitValue_plus)
    · obtain ⟨-, rfl⟩ := List.cons.inj hs; exact ⟨ne, vs, h, rfl⟩
    · exact absurd (List.cons.inj hs).1 (by decide)
  · rintro ⟨h0, vs, h, rfl⟩; exact .plus cs vs h0 h

theorem numeral_minus {cs : List Char} {v : Int} :
    (HexNumeral ('-' :: cs) v ↔
      cs ≠ [] ∧ ∃ vs, cs.mapM digitValue = some vs ∧ v = -(positional vs : Int)) := by
  constructor
  · intro h
    generalize hs : '-' :: cs = s at h
    rcases h with ⟨_, vs, ne, h⟩ | ⟨_, vs, ne, h⟩ | ⟨_, vs, ne, h⟩
    · subst hs; exact absurd h (mapM_cons_none _ _ _ digitValue_minus)
    · exact absurd (List.cons.inj hs).1 (by decide)
    · obtain ⟨-, rfl⟩ := List.cons.inj hs; exact ⟨ne, vs, h, rfl⟩
  · rintro ⟨h0, vs, h, rfl⟩; exact .minus cs vs h0 h

theorem parse_pos (cs : List Char) (v : Int) : parseLoop true 0 cs = some v ↔
    ∃ vs, cs.mapM digitValue = some vs ∧ v = positional vs ∧ InI64 v := by
  have := parseLoop_iff true cs 0 v (by simp [InI64])
  simpa [horner_zero] using this

theorem parse_neg (cs : List Char) (v : Int) : parseLoop false 0 cs = some v ↔
    ∃ vs, cs.mapM digitValue = some vs ∧ v = -(positional vs : Int) ∧ InI64 v := by
  have := parseLoop_iff false cs 0 v (by simp [InI64])
  simpa [horner_zero] using this

/-- `from_str_radix(_, 16)` accepts exactly the hexadecimal numerals in range. -/
theorem fromStrRadix16_iff (cs : List Char) (v : Int) :
    fromStrRadix16 cs = some v ↔ HexNumeral cs v ∧ InI64 v := by
  unfold fromStrRadix16
  split
  · constructor
    · intro h; simp at h
    · rintro ⟨h, -⟩; cases h; contradiction
  · rw [numeral_plus]; simp
  · rw [numeral_minus]; simp
  · next c hc =>
    rw [numeral_plus, parse_pos]
    have : c ≠ [] := by rintro rfl; exact hc rfl
    grind
  · next c hc =>
    rw [numeral_minus, parse_neg]
    have : c ≠ [] := by rintro rfl; exact hc rfl
    grind
  · next c h1 h2 h3 h4 h5 =>
    rw [numeral_plain h1, parse_pos]
    · grind
    · intro h; cases cs with
      | nil => simp at h
      | cons a as => simp at h; subst h; exact h4 as rfl
    · intro h; cases cs with
      | nil => simp at h
      | cons a as => simp at h; subst h; exact h5 as rfl

/-! ### C04 -/

theorem numeral_head {cs : List Char} {v : Int} (h : HexNumeral cs v) : cs.head? ≠ some '#' := by
  rcases h with ⟨_, vs, ne, h⟩ | ⟨_, vs, ne, h⟩ | ⟨_, vs, ne, h⟩
  · intro hh
    cases cs with
    | nil => simp at hh
    | cons a as =>
      simp at hh; subst hh
      exact mapM_cons_none _ _ _ digitValue_hash h
  · simp
  · simp

theorem dropWhile_hash (k : Nat) (rest : List Char) (h : rest.head? ≠ some '#') :
    (List.replicate k '#' ++ rest).dropWhile (· = '#') = rest := by
  induction k with
  | zero =>
    cases rest with
    | nil => rfl
    | cons a as =>
      have : a ≠ '#' := by rintro rfl; simp at h
      simp [this]
  | succ k ih => simpa [List.replicate_succ] using ih

theorem split_hash (s : List Char) :
    ∃ k, s = List.replicate k '#' ++ s.dropWhile (· = '#') := by
  induction s with
  | nil => exact ⟨0, rfl⟩
  | cons a as ih =>
    by_cases h : a = '#'
    · subst h
      obtain ⟨k, hk⟩ := ih
      refine ⟨k + 1, ?_⟩
      simp only [List.replicate_succ, List.dropWhile_cons, decide_true, if_true, List.cons_append]
      rw [← hk]
    · exact ⟨0, by simp [h]⟩

/-- C04: parsing succeeds exactly on any number of `#` followed by a hexadecimal numeral (optional sign,
one or more digits of either case) whose value fits in 64 bits, and returns that value. -/
theorem c04_parse_decision (s : List Char) (v : Int) :
    argbFromHex s = some v ↔
      ∃ k rest, s = List.replicate k '#' ++ rest ∧ HexNumeral rest v ∧ InI64 v := by
  rw [argbFromHex, fromStrRadix16_iff]
  constructor
  · intro h
    obtain ⟨k, hk⟩ := split_hash s
    exact ⟨k, _, hk, h⟩
  · rintro ⟨k, rest, rfl, h⟩
    rwa [dropWhile_hash k rest (numeral_head h.1)]

/-- C04: every other string gives `None`. -/
theorem c04_parse_none (s : List Char)
    (h : ∀ k rest v, s = List.replicate k '#' ++ rest → HexNumeral rest v → ¬ InI64 v) :
    argbFromHex s = none := by
  cases hv : argbFromHex s with
  | none => rfl
  | some v =>
    obtain ⟨k, rest, h1, h2, h3⟩ := (c04_parse_decision s v).1 hv
    exact absurd h3 (h k rest v h1 h2)

example : argbFromHex "##-Ff".toList = some (-255) := by decide
example : argbFromHex "#".toList = none ∧ argbFromHex "12 4".toList = none ∧
    argbFromHex "8000000000000000".toList = none ∧
    argbFromHex "-8000000000000000".toList = some (-9223372036854775808) := by decide

/-! ### C03 -/

/-- The upper-case hexadecimal digit of a nibble, from the digit table. -/
def upperDigit (n : Int) : Char := "0123456789ABCDEF".toList.getD n.toNat '?'

theorem fmt_upper (n : Int) (h : 0 ≤ n ∧ n < 256) :
    (fmt02x n).map Char.toUpper = [upperDigit (n / 16), upperDigit (n % 16)] := by
  have key : ∀ k < 256, (fmt02x (Int.ofNat k)).map Char.toUpper =
      [upperDigit (Int.ofNat k / 16), upperDigit (Int.ofNat k % 16)] := by decide +kernel
  have := key n.toNat (by omega)
  have e : Int.ofNat n.toNat = n := by simp [h.1]
  rwa [e] at this

theorem upperDigit_value (n : Int) (h : 0 ≤ n ∧ n < 16) :
    digitValue (upperDigit n) = some n.toNat := by
  have key : ∀ k < 16, digitValue (upperDigit (Int.ofNat k)) = some (Int.ofNat k).toNat := by
    decide +kernel
  have := key n.toNat (by omega)
  have e : Int.ofNat n.toNat = n := by simp [h.1]
  rwa [e] at this

/-- C03: the text is an optional `#` and the six upper-case hexadecimal digits of the low 24 bits, most
significant first. -/
theorem c03_format (argb : Int) (leading : Option Bool) :
    hexFromArgb argb leading =
      (if leading = some false then [] else ['#']) ++
        [upperDigit (argb / 16 ^ 5 % 16), upperDigit (argb / 16 ^ 4 % 16),
         upperDigit (argb / 16 ^ 3 % 16), upperDigit (argb / 16 ^ 2 % 16),
         upperDigit (argb / 16 % 16), upperDigit (argb % 16)] := by
  have hr : 0 ≤ redFromArgb argb ∧ redFromArgb argb < 256 := by simp only [redFromArgb]; omega
  have hg : 0 ≤ greenFromArgb argb ∧ greenFromArgb argb < 256 := by simp only [greenFromArgb]; omega
  have hb : 0 ≤ blueFromArgb argb ∧ blueFromArgb argb < 256 := by simp only [blueFromArgb]; omega
  have p : (if leading.getD true = true then ['#'] else []) =
      (if leading = some false then [] else ['#']) := by
    rcases leading with _ | _ | _ <;> rfl
  have e1 : redFromArgb argb / 16 = argb / 16 ^ 5 % 16 := by simp only [redFromArgb]; omega
  have e2 : redFromArgb argb % 16 = argb / 16 ^ 4 % 16 := by simp only [redFromArgb]; omega
  have e3 : greenFromArgb argb / 16 = argb / 16 ^ 3 % 16 := by simp only [greenFromArgb]; omega
  have e4 : greenFromArgb argb % 16 = argb / 16 ^ 2 % 16 := by simp only [greenFromArgb]; omega
  have e5 : blueFromArgb argb / 16 = argb / 16 % 16 := by simp only [blueFromArgb]; omega
  have e6 : blueFromArgb argb % 16 = argb % 16 := by simp only [blueFromArgb]; omega
  simp only [hexFromArgb, List.map_append, fmt_upper _ hr, fmt_upper _ hg, fmt_upper _ hb, p,
    e1, e2, e3, e4, e5, e6, List.cons_append, List.nil_append]

theorem nibbles (x : Int) : x % 2 ^ 24 =
    x / 16 ^ 5 % 16 * 16 ^ 5 + x / 16 ^ 4 % 16 * 16 ^ 4 + x / 16 ^ 3 % 16 * 16 ^ 3 +
      x / 16 ^ 2 % 16 * 16 ^ 2 + x / 16 % 16 * 16 + x % 16 := by
  have step (y : Int) (k : Nat) : y % 16 ^ (k + 1) = y / 16 ^ k % 16 * 16 ^ k + y % 16 ^ k := by
    have h1 := Int.emod_add_mul_ediv y (16 ^ (k + 1))
    have h2 := Int.emod_add_mul_ediv y (16 ^ k)
    have h3 := Int.emod_add_mul_ediv (y / 16 ^ k) 16
    have h4 : y / 16 ^ (k + 1) = y / 16 ^ k / 16 := by
      rw [pow_succ, Int.ediv_ediv_of_nonneg (by positivity)]
    rw [h4, pow_succ] at h1
    rw [pow_succ]
    linear_combination h1 - h2 - 16 ^ k * h3
  rw [show (2 : Int) ^ 24 = 16 ^ (5 + 1) by norm_num, step, step x 4, step x 3, step x 2, step x 1]
  norm_num
  ring

/-- C03: parsing the formatted text gives back the low 24 bits, with and without `#`. -/
theorem c03_round_trip (argb : Int) (leading : Option Bool) :
    argbFromHex (hexFromArgb argb leading) = some (argb % 2 ^ 24) := by
  rw [c04_parse_decision, c03_format]
  refine ⟨if leading = some false then 0 else 1, [upperDigit (argb / 16 ^ 5 % 16), upperDigit (argb / 16 ^ 4 % 16),
         upperDigit (argb / 16 ^ 3 % 16), upperDigit (argb / 16 ^ 2 % 16),
         upperDigit (argb / 16 % 16), upperDigit (argb % 16)], ?_, ?_, ?_⟩
  · by_cases h : leading = some false <;> simp [h]
  · have hv := HexNumeral.plain [upperDigit (argb / 16 ^ 5 % 16), upperDigit (argb / 16 ^ 4 % 16),
         upperDigit (argb / 16 ^ 3 % 16), upperDigit (argb / 16 ^ 2 % 16),
         upperDigit (argb / 16 % 16), upperDigit (argb % 16)]
         [(argb / 16 ^ 5 % 16).toNat, (argb / 16 ^ 4 % 16).toNat, (argb / 16 ^ 3 % 16).toNat,
          (argb / 16 ^ 2 % 16).toNat, (argb / 16 % 16).toNat, (argb % 16).toNat] (by simp)
         (by
          simp only [List.mapM_cons, List.mapM_nil]
          repeat rw [upperDigit_value _ (by omega)]
          rfl)
    have e : argb % 2 ^ 24 = ((positional
         [(argb / 16 ^ 5 % 16).toNat, (argb / 16 ^ 4 % 16).toNat, (argb / 16 ^ 3 % 16).toNat,
          (argb / 16 ^ 2 % 16).toNat, (argb / 16 % 16).toNat, (argb % 16).toNat] : Nat) : Int) := by
      rw [nibbles]
      simp only [positional, List.length_cons, List.length_nil]
      push_cast
      repeat rw [Int.toNat_of_nonneg (by omega)]
      ring
    rw [e]
    exact hv
  · simp only [InI64]; omega

/-- C03: two colours have the same text only if their low 24 bits agree. -/
theorem c03_injective (a b : Int) (leading : Option Bool)
    (h : hexFromArgb a leading = hexFromArgb b leading) : a % 2 ^ 24 = b % 2 ^ 24 := by
  have ha := c03_round_trip a leading
  have hb := c03_round_trip b leading
  rw [h, hb] at ha
  exact (Option.some.inj ha).symm

example : hexFromArgb 0xFF0A0B0C none = "#0A0B0C".toList ∧
    argbFromHex (hexFromArgb 0xFF0A0B0C (some false)) = some 0x0A0B0C := by decide

end Mcu.Props
