import Verif.Lemmas.F64Lines
import Mathlib.Tactic.IntervalCases

/-! The vertices of the luminance plane computed in IEEE-754 binary64, for any double as the luminance. -/

namespace Mcu.Lemmas

open Mcu.Ieee Props Props.Binary64 MathUtils ColorUtils HctSolver

variable {L : Libm}

local notation "𝔻" => F64 L

/-! ### From finite results back to finite operands -/

theorem fin_ofReal {s : Bool} {v : ℝ} (h : Dbl.Fin (Dbl.ofReal s v)) : |rnd v| < 2 ^ 1024 := by
  unfold Dbl.ofReal at h
  by_cases h0 : rnd v = 0
  · rw [h0, abs_zero]; positivity
  · rw [dif_neg h0] at h
    by_contra hc
    rw [dif_neg hc] at h
    exact h

theorem fin_sum {s : Bool} {c : ℝ} {d : Dbl} (hd : d = open Classical in if c = 0 then Dbl.zero s else Dbl.ofReal false c)
    (h : Dbl.Fin d) : |rnd c| < 2 ^ 1024 := by
  by_cases h0 : c = 0
  · rw [h0, rnd_zero, abs_zero]; positivity
  · rw [if_neg h0] at hd; subst hd; exact fin_ofReal h

theorem inv_add {x y : 𝔻} {b : ℝ} (hy : Is y b) (h : Dbl.Fin (x + y)) : ∃ a, Is x a ∧ Is (x + y) (rnd (a + b)) := by
  obtain ⟨h2, rfl⟩ := hy
  rcases x with _ | s | s | ⟨v, hv⟩
  · rcases y with _ | t | t | ⟨w, hw⟩ <;> exact h.elim
  · rcases y with _ | t | t | ⟨w, hw⟩
    · exact h.elim
    · exact h2.elim
    · exact h.elim
    · exact h.elim
  all_goals
    refine ⟨_, ⟨trivial, rfl⟩, ?_⟩
    rcases y with _ | t | t | ⟨w, hw⟩
    · exact h2.elim
    · exact h2.elim
    · exact is_sum _ (fin_sum rfl h) rfl
    · exact is_sum _ (fin_sum rfl h) rfl

theorem inv_sub {x y : 𝔻} {b : ℝ} (hy : Is y b) (h : Dbl.Fin (x - y)) : ∃ a, Is x a ∧ Is (x - y) (rnd (a - b)) := by
  obtain ⟨a, h1, h2⟩ := inv_add hy.neg h
  exact ⟨a, h1, by rw [sub_eq_add_neg]; exact h2⟩

theorem inv_div {x y : 𝔻} {b : ℝ} (hy : Is y b) (hb : b ≠ 0) (h : Dbl.Fin (x / y)) : ∃ a, Is x a ∧ Is (x / y) (rnd (a / b)) := by
  obtain ⟨h2, rfl⟩ := hy
  rcases y with _ | t | t | ⟨w, hw⟩
  · exact h2.elim
  · exact h2.elim
  · exact absurd rfl hb
  rcases x with _ | s | s | ⟨v, hv⟩
  · exact h.elim
  · exact h.elim
  · exact ⟨_, ⟨trivial, rfl⟩, is_ofReal _ (fin_ofReal h)⟩
  · exact ⟨_, ⟨trivial, rfl⟩, is_ofReal _ (fin_ofReal h)⟩

/-- A number whose rounding is bounded. -/
theorem bound_of_rnd {v : ℝ} {n : ℕ} (hn : n < 2 ^ 50) (h : |rnd v| ≤ n) : |v| ≤ n + 1 := by
  have hr : Rep (((n + 1 : ℕ) : ℤ) : ℝ) := rep_int (by push_cast; rw [abs_of_nonneg (by positivity)]; exact_mod_cast (by omega : n + 1 ≤ 2 ^ 53))
  push_cast at hr
  have h := abs_le.1 h
  rw [abs_le]
  constructor
  · by_contra hc
    push Not at hc
    have := hr.neg.rnd_le hc.le
    linarith [h.1]
  · by_contra hc
    push Not at hc
    have := hr.le_rnd hc.le
    linarith [h.2]

theorem l100' : Is (100.0 : 𝔻) 100 := by simpa using lit (L := L) 1000 1 true 100 (by norm_num) (by norm_num)

theorem l0' : Is (0.0 : 𝔻) 0 := by simpa using lit (L := L) 0 1 true 0 (by norm_num) (by norm_num)

/-- A number accepted as a coordinate is finite. -/
theorem bounded_fin {x : 𝔻} (h : isBounded x = true) : ∃ a, Is x a ∧ 0 ≤ a ∧ a ≤ 100 := by
  simp only [isBounded, Bool.and_eq_true, decide_eq_true_eq] at h
  obtain ⟨h0, h1⟩ := h
  have hf : Dbl.Fin x := by
    rcases x with _ | s | s | ⟨v, hv⟩
    · exact absurd h0.2.1 (by simp [Dbl.isNan])
    · exfalso
      have e0 := h0.2.2
      have e1 := h1.2.2
      have f0 := (l0' (L := L))
      have f1 := (l100' (L := L))
      cases s
      · generalize (100.0 : 𝔻) = c at *
        rcases c with _ | t | t | ⟨w, hw⟩
        · exact f1.1
        · exact f1.1
        · exact absurd e1 (by simp [Dbl.ext])
        · exact absurd e1 (by simp [Dbl.ext])
      · generalize (0.0 : 𝔻) = c at *
        rcases c with _ | t | t | ⟨w, hw⟩
        · exact f0.1
        · exact f0.1
        · exact absurd e0 (by simp [Dbl.ext])
        · exact absurd e0 (by simp [Dbl.ext])
    · trivial
    · trivial
  have hx : Is x (Dbl.val x) := ⟨hf, rfl⟩
  exact ⟨_, hx, (l0'.le_iff hx).1 h0, (hx.le_iff l100').1 h1⟩

/-- The coordinate solved for the luminance, whatever double the luminance is. -/
theorem solve64 {y c1 c2 k : 𝔻} {p1 p2 κ : ℝ} (h1 : Is c1 p1) (h2 : Is c2 p2) (hk : Is k κ) (b1 : |p1| ≤ 73) (b2 : |p2| ≤ 73)
    (k0 : 7 / 100 ≤ κ) (k1 : κ ≤ 72 / 100) (hb : isBounded ((y - c1 - c2) / k) = true) :
    ∃ v r, Is y v ∧ Is ((y - c1 - c2) / k) r ∧ 0 ≤ r ∧ r ≤ 100 ∧ |κ * r + p1 + p2 - v| ≤ 1 / 10 ^ 12 := by
  obtain ⟨r, ir, r0, r1⟩ := bounded_fin hb
  obtain ⟨n, in_, e⟩ := inv_div hk (by linarith : κ ≠ 0) ir.1
  have er := ir.unique e
  obtain ⟨m, im, e⟩ := inv_sub h2 in_.1
  have en := in_.unique e
  obtain ⟨v, iv, e⟩ := inv_sub h1 im.1
  have em := im.unique e
  refine ⟨v, r, iv, ir, r0, r1, ?_⟩
  have b1 := abs_le.1 b1
  have b2 := abs_le.1 b2
  have B1 : |n / κ| ≤ 101 := by
    have := bound_of_rnd (v := n / κ) (n := 100) (by norm_num) (by rw [← er, abs_of_nonneg r0]; exact_mod_cast r1)
    norm_num at this; linarith
  have B2 : |n| ≤ 73 := by
    rw [abs_div, abs_of_pos (by linarith : 0 < κ), div_le_iff₀ (by linarith)] at B1
    nlinarith
  have B3 : |m - p2| ≤ 74 := by
    have := bound_of_rnd (v := m - p2) (n := 73) (by norm_num) (by rw [← en]; exact_mod_cast B2)
    norm_num at this; linarith
  have B3' := abs_le.1 B3
  have B4 : |m| ≤ 147 := by rw [abs_le]; constructor <;> linarith
  have B5 : |v - p1| ≤ 148 := by
    have := bound_of_rnd (v := v - p1) (n := 147) (by norm_num) (by rw [← em]; exact_mod_cast B4)
    norm_num at this; linarith
  have E1 := abs_le.1 (rnd_within 148 (by norm_num) B5).2
  have E2 := abs_le.1 (rnd_within 74 (by norm_num) B3).2
  have E3 := abs_le.1 (rnd_within 101 (by norm_num) B1).2
  rw [← em] at E1
  rw [← en] at E2
  rw [← er] at E3
  have hn : n = κ * (n / κ) := by field_simp
  have E4 : |κ * r - n| ≤ 72 / 100 * (101 * (2 / 10 ^ 16) + 1 / 10 ^ 60) := by
    have : κ * r - n = κ * (r - n / κ) := by rw [mul_sub, ← hn]
    rw [this, abs_mul, abs_of_pos (by linarith : 0 < κ)]
    have := abs_le.2 E3
    gcongr
  have E4 := abs_le.1 E4
  norm_num at E1 E2 E4
  rw [abs_le]
  norm_num
  constructor <;> linarith

/-! ### Vertices -/

/-- The corner coordinates of candidate `n`. -/
noncomputable def cornerA (n : ℕ) : ℝ := if n % 4 ≤ 1 then 0 else 100
noncomputable def cornerB (n : ℕ) : ℝ := if n % 2 = 0 then 0 else 100

/-- Candidate `n` for the luminance `v`, up to a small error in the luminance. -/
structure Vertex64 (v : ℝ) (n : ℕ) (A : Fin 3 → ℝ) : Prop where
  range : ∀ i, 0 ≤ A i ∧ A i ≤ 100
  lum : |0.2126 * A 0 + 0.7152 * A 1 + 0.0722 * A 2 - v| ≤ 1 / 10 ^ 11
  red : n < 4 → A 1 = cornerA n ∧ A 2 = cornerB n
  green : 4 ≤ n → n < 8 → A 2 = cornerA n ∧ A 0 = cornerB n
  blue : 8 ≤ n → A 0 = cornerA n ∧ A 1 = cornerB n

theorem is_cornerA (n : ℕ) : Is (if n % 4 ≤ 1 then (0.0 : 𝔻) else 100.0) (cornerA n) := by
  unfold cornerA; split
  · exact l0'
  · exact l100'

theorem is_cornerB (n : ℕ) : Is (if n % 2 = 0 then (0.0 : 𝔻) else 100.0) (cornerB n) := by
  unfold cornerB; split
  · exact l0'
  · exact l100'

theorem cornerA_or (n : ℕ) : cornerA n = 0 ∨ cornerA n = 100 := by unfold cornerA; split <;> simp
theorem cornerB_or (n : ℕ) : cornerB n = 0 ∨ cornerB n = 100 := by unfold cornerB; split <;> simp

/-- The luminance of a corner coordinate. -/
theorem corner_mul {g k : 𝔻} {a κ c : ℝ} (hg : Is g a) (hk : Is k κ) (ha : a = 0 ∨ a = 100) (hκ : |κ - c| ≤ 1 / 10 ^ 15)
    (c0 : 7 / 100 ≤ c) (c1 : c ≤ 716 / 1000) : ∃ p, Is (g * k) p ∧ |p - a * c| ≤ 2 / 10 ^ 13 ∧ |p| ≤ 73 := by
  have hκ := abs_le.1 hκ
  norm_num at hκ
  have ha0 : 0 ≤ a ∧ a ≤ 100 := by rcases ha with rfl | rfl <;> norm_num
  have hb : |a * κ| ≤ 72 := by
    rw [abs_of_nonneg (mul_nonneg ha0.1 (by linarith))]
    nlinarith
  obtain ⟨h1, h2⟩ := rnd_within 72 (by norm_num) hb
  have h2 := abs_le.1 h2
  have h3 : |a * κ - a * c| ≤ 100 * (1 / 10 ^ 15) := by
    rw [← mul_sub, abs_mul, abs_of_nonneg ha0.1]
    have := abs_le.2 ⟨(by norm_num; linarith : -(1 / 10 ^ 15) ≤ κ - c), by norm_num; linarith⟩
    gcongr
    exact ha0.2
  have h3 := abs_le.1 h3
  have hb := abs_le.1 hb
  norm_num at h2 h3
  refine ⟨_, hg.mul hk h1, ?_, ?_⟩
  · rw [abs_le]; norm_num; constructor <;> linarith
  · rw [abs_le]; constructor <;> linarith

theorem skip64 : ((-1.0 : 𝔻)) < 0.0 := by
  have h1 : Is (1.0 : 𝔻) 1 := by simpa using lit (L := L) 10 1 true 1 (by norm_num) (by norm_num)
  rw [h1.neg.lt_iff l0']; norm_num

theorem nthVertex64 (y : 𝔻) (n : ℕ) : (nthVertex y n).x0 < 0.0 ∨
    ∃ v A, Is y v ∧ IsV (nthVertex y n) A ∧ Vertex64 v n A := by
  obtain ⟨kr, ikr, hkr⟩ := is_dec (L := L) (m := 2126) (s := true) (e := 4) (v := 0.2126) (by norm_num) 1 (by norm_num)
    (by norm_num [abs_le])
  obtain ⟨kg, ikg, hkg⟩ := is_dec (L := L) (m := 7152) (s := true) (e := 4) (v := 0.7152) (by norm_num) 1 (by norm_num)
    (by norm_num [abs_le])
  obtain ⟨kb, ikb, hkb⟩ := is_dec (L := L) (m := 722) (s := true) (e := 4) (v := 0.0722) (by norm_num) 1 (by norm_num)
    (by norm_num [abs_le])
  replace hkr : |kr - 0.2126| ≤ 1 / 10 ^ 15 := hkr.trans (by norm_num)
  replace hkg : |kg - 0.7152| ≤ 1 / 10 ^ 15 := hkg.trans (by norm_num)
  replace hkb : |kb - 0.0722| ≤ 1 / 10 ^ 15 := hkb.trans (by norm_num)
  have hkr' := abs_le.1 hkr
  have hkg' := abs_le.1 hkg
  have hkb' := abs_le.1 hkb
  norm_num at hkr' hkg' hkb'
  have iA := is_cornerA (L := L) n
  have iB := is_cornerB (L := L) n
  have oA := cornerA_or n
  have oB := cornerB_or n
  have rA : 0 ≤ cornerA n ∧ cornerA n ≤ 100 := by rcases oA with h | h <;> rw [h] <;> norm_num
  have rB : 0 ≤ cornerB n ∧ cornerB n ≤ 100 := by rcases oB with h | h <;> rw [h] <;> norm_num
  change Is (yFromLinrgb : Vec3 𝔻).x0 kr at ikr
  change Is (yFromLinrgb : Vec3 𝔻).x1 kg at ikg
  change Is (yFromLinrgb : Vec3 𝔻).x2 kb at ikb
  simp only [nthVertex]
  generalize (yFromLinrgb : Vec3 𝔻).x0 = xr at *
  generalize (yFromLinrgb : Vec3 𝔻).x1 = xg at *
  generalize (yFromLinrgb : Vec3 𝔻).x2 = xb at *
  generalize (if n % 4 ≤ 1 then (0.0 : 𝔻) else 100.0) = ca at *
  generalize (if n % 2 = 0 then (0.0 : 𝔻) else 100.0) = cb at *
  have err : ∀ {κ c r : ℝ}, 0 ≤ r → r ≤ 100 → |κ - c| ≤ 1 / 10 ^ 15 → |κ * r - c * r| ≤ 1 / 10 ^ 13 := by
    intro κ c r h0 h1 h
    rw [← sub_mul, abs_mul, abs_of_nonneg h0]
    calc |κ - c| * r ≤ 1 / 10 ^ 15 * 100 := by gcongr
      _ = 1 / 10 ^ 13 := by norm_num
  by_cases h4 : n < 4
  · simp only [if_pos h4]
    by_cases hb : isBounded ((y - ca * xg - cb * xb) / xr) = true
    · rw [if_pos hb]
      right
      obtain ⟨p1, i1, e1, q1⟩ := corner_mul iA ikg oA hkg (by norm_num) (by norm_num)
      obtain ⟨p2, i2, e2, q2⟩ := corner_mul iB ikb oB hkb (by norm_num) (by norm_num)
      obtain ⟨v, r, iv, ir, r0, r1, hr⟩ := solve64 i1 i2 ikr q1 q2 (by linarith) (by linarith) hb
      refine ⟨v, ![r, cornerA n, cornerB n], iv, ?_, ?_⟩
      · intro i; fin_cases i
        · exact ir
        · exact iA
        · exact iB
      · refine ⟨?_, ?_, fun _ => ⟨rfl, rfl⟩, fun h => absurd h4 (by omega), fun h => absurd h4 (by omega)⟩
        · intro i; fin_cases i
          · exact ⟨r0, r1⟩
          · exact rA
          · exact rB
        · have e0 := abs_le.1 (err r0 r1 hkr)
          have e1 := abs_le.1 e1
          have e2 := abs_le.1 e2
          have hr := abs_le.1 hr
          show |0.2126 * r + 0.7152 * cornerA n + 0.0722 * cornerB n - v| ≤ _
          norm_num at e0 e1 e2 hr
          rw [abs_le]; norm_num; constructor <;> linarith
    · rw [if_neg hb]; exact .inl skip64
  · by_cases h8 : n < 8
    · simp only [if_neg h4, if_pos h8]
      by_cases hb : isBounded ((y - cb * xr - ca * xb) / xg) = true
      · rw [if_pos hb]
        right
        obtain ⟨p1, i1, e1, q1⟩ := corner_mul iB ikr oB hkr (by norm_num) (by norm_num)
        obtain ⟨p2, i2, e2, q2⟩ := corner_mul iA ikb oA hkb (by norm_num) (by norm_num)
        obtain ⟨v, r, iv, ir, r0, r1, hr⟩ := solve64 i1 i2 ikg q1 q2 (by linarith) (by linarith) hb
        refine ⟨v, ![cornerB n, r, cornerA n], iv, ?_, ?_⟩
        · intro i; fin_cases i
          · exact iB
          · exact ir
          · exact iA
        · refine ⟨?_, ?_, fun h => absurd h h4, fun _ _ => ⟨rfl, rfl⟩, fun h => absurd h8 (by omega)⟩
          · intro i; fin_cases i
            · exact rB
            · exact ⟨r0, r1⟩
            · exact rA
          · have e0 := abs_le.1 (err r0 r1 hkg)
            have e1 := abs_le.1 e1
            have e2 := abs_le.1 e2
            have hr := abs_le.1 hr
            show |0.2126 * cornerB n + 0.7152 * r + 0.0722 * cornerA n - v| ≤ _
            norm_num at e0 e1 e2 hr
            rw [abs_le]; norm_num; constructor <;> linarith
      · rw [if_neg hb]; exact .inl skip64
    · simp only [if_neg h4, if_neg h8]
      by_cases hb : isBounded ((y - ca * xr - cb * xg) / xb) = true
      · rw [if_pos hb]
        right
        obtain ⟨p1, i1, e1, q1⟩ := corner_mul iA ikr oA hkr (by norm_num) (by norm_num)
        obtain ⟨p2, i2, e2, q2⟩ := corner_mul iB ikg oB hkg (by norm_num) (by norm_num)
        obtain ⟨v, r, iv, ir, r0, r1, hr⟩ := solve64 i1 i2 ikb q1 q2 (by linarith) (by linarith) hb
        refine ⟨v, ![cornerA n, cornerB n, r], iv, ?_, ?_⟩
        · intro i; fin_cases i
          · exact iA
          · exact iB
          · exact ir
        · refine ⟨?_, ?_, fun h => absurd h h4, fun _ h => absurd h h8, fun _ => ⟨rfl, rfl⟩⟩
          · intro i; fin_cases i
            · exact rA
            · exact rB
            · exact ⟨r0, r1⟩
          · have e0 := abs_le.1 (err r0 r1 hkb)
            have e1 := abs_le.1 e1
            have e2 := abs_le.1 e2
            have hr := abs_le.1 hr
            show |0.2126 * cornerA n + 0.7152 * cornerB n + 0.0722 * r - v| ≤ _
            norm_num at e0 e1 e2 hr
            rw [abs_le]; norm_num; constructor <;> linarith
      · rw [if_neg hb]; exact .inl skip64

/-- Coordinates of two different candidates are far apart, or one of them is a face of the cube. -/
theorem vertex_far {v : ℝ} {n m : ℕ} {A B : Fin 3 → ℝ} (hA : Vertex64 v n A) (hB : Vertex64 v m B) (hn : n < 12) (hm : m < 12)
    (hne : n ≠ m) (i : Fin 3) : 6 ≤ |B i - A i| ∨ (A i = 0 ∨ A i = 100) ∨ (B i = 0 ∨ B i = 100) := by
  obtain ⟨-, la, ra, ga, ba⟩ := hA
  obtain ⟨-, lb, rb, gb, bb⟩ := hB
  have la := abs_le.1 la
  have lb := abs_le.1 lb
  have oA := cornerA_or n
  have oB := cornerB_or n
  have oA' := cornerA_or m
  have oB' := cornerB_or m
  norm_num at la lb
  fin_cases i
  · rcases Nat.lt_or_ge n 4 with h | h
    · rcases Nat.lt_or_ge m 4 with h' | h'
      · left
        obtain ⟨a1, a2⟩ := ra h
        obtain ⟨b1, b2⟩ := rb h'
        rw [a1, a2] at la
        rw [b1, b2] at lb
        show 6 ≤ |B 0 - A 0|
        rw [le_abs]
        unfold cornerA cornerB at la lb
        interval_cases n <;> interval_cases m <;> first
              | exact absurd rfl hne
              | (norm_num at la lb; left; linarith)
              | (norm_num at la lb; right; linarith)
      · rcases Nat.lt_or_ge m 8 with h'' | h''
        · exact .inr (.inr ((gb h' h'').2 ▸ oB'))
        · exact .inr (.inr ((bb h'').1 ▸ oA'))
    · rcases Nat.lt_or_ge n 8 with h'' | h''
      · exact .inr (.inl ((ga h h'').2 ▸ oB))
      · exact .inr (.inl ((ba h'').1 ▸ oA))
  · rcases Nat.lt_or_ge n 4 with h | h
    · exact .inr (.inl ((ra h).1 ▸ oA))
    · rcases Nat.lt_or_ge n 8 with h8 | h8
      · rcases Nat.lt_or_ge m 4 with h' | h'
        · exact .inr (.inr ((rb h').1 ▸ oA'))
        · rcases Nat.lt_or_ge m 8 with h'' | h''
          · left
            obtain ⟨a1, a2⟩ := ga h h8
            obtain ⟨b1, b2⟩ := gb h' h''
            rw [a1, a2] at la
            rw [b1, b2] at lb
            show 6 ≤ |B 1 - A 1|
            rw [le_abs]
            unfold cornerA cornerB at la lb
            interval_cases n <;> interval_cases m <;> first
              | exact absurd rfl hne
              | (norm_num at la lb; left; linarith)
              | (norm_num at la lb; right; linarith)
          · exact .inr (.inr ((bb h'').2 ▸ oB'))
      · exact .inr (.inl ((ba h8).2 ▸ oB))
  · rcases Nat.lt_or_ge n 4 with h | h
    · exact .inr (.inl ((ra h).2 ▸ oB))
    · rcases Nat.lt_or_ge n 8 with h8 | h8
      · exact .inr (.inl ((ga h h8).1 ▸ oA))
      · rcases Nat.lt_or_ge m 4 with h' | h'
        · exact .inr (.inr ((rb h').2 ▸ oB'))
        · rcases Nat.lt_or_ge m 8 with h'' | h''
          · exact .inr (.inr ((gb h' h'').1 ▸ oA'))
          · left
            obtain ⟨a1, a2⟩ := ba h8
            obtain ⟨b1, b2⟩ := bb h''
            rw [a1, a2] at la
            rw [b1, b2] at lb
            show 6 ≤ |B 2 - A 2|
            rw [le_abs]
            unfold cornerA cornerB at la lb
            interval_cases n <;> interval_cases m <;> first
              | exact absurd rfl hne
              | (norm_num at la lb; left; linarith)
              | (norm_num at la lb; right; linarith)

/-- What the vertex loop maintains. -/
def SegOk64 (y : 𝔻) (s : SegState 𝔻) : Prop :=
  (s.left = ⟨-1.0, -1.0, -1.0⟩ ∧ s.right = ⟨-1.0, -1.0, -1.0⟩ ∧ s.initialized = false) ∨
  ∃ v n m A B, n < 12 ∧ m < 12 ∧ Is y v ∧ s.left = nthVertex y n ∧ s.right = nthVertex y m ∧
    IsV s.left A ∧ IsV s.right B ∧ Vertex64 v n A ∧ Vertex64 v m B

theorem segStep_ok64 (y hue : 𝔻) (s : SegState 𝔻) (n : Nat) (hn : n < 12) (h : SegOk64 y s) :
    SegOk64 y (segStep y hue s n) := by
  simp only [segStep]
  by_cases hs : (nthVertex y n).x0 < 0.0
  · rw [if_pos hs]; exact h
  rw [if_neg hs]
  obtain ⟨v, A, iv, iA, hA⟩ := (nthVertex64 y n).resolve_left hs
  split_ifs with c2 c3 c4
  · exact .inr ⟨v, n, n, A, A, hn, hn, iv, rfl, rfl, iA, iA, hA, hA⟩
  · rcases h with ⟨-, -, h⟩ | ⟨w, k, m, B, C, hk, hm, iw, e1, e2, iB, iC, hB, hC⟩
    · rw [h] at c2; exact absurd rfl c2
    · have := iv.unique iw
      subst this
      exact .inr ⟨v, k, n, B, A, hk, hn, iv, e1, rfl, iB, iA, hB, hA⟩
  · rcases h with ⟨-, -, h⟩ | ⟨w, k, m, B, C, hk, hm, iw, e1, e2, iB, iC, hB, hC⟩
    · rw [h] at c2; exact absurd rfl c2
    · have := iv.unique iw
      subst this
      exact .inr ⟨v, n, m, A, C, hn, hm, iv, rfl, e2, iA, iC, hA, hC⟩
  · exact h

theorem segFold_ok64 (y hue : 𝔻) (l : List Nat) (hl : ∀ n ∈ l, n < 12) (s : SegState 𝔻) (h : SegOk64 y s) :
    SegOk64 y (l.foldl (segStep y hue) s) := by
  induction l generalizing s with
  | nil => exact h
  | cons a l ih =>
    exact ih (fun n hn => hl n (List.mem_cons_of_mem _ hn)) _ (segStep_ok64 y hue s a (hl a (List.mem_cons_self ..)) h)

theorem segStep_init64 (y hue : 𝔻) (s : SegState 𝔻) (n : Nat) (h : s.initialized = true ∨ ¬ (nthVertex y n).x0 < 0.0) :
    (segStep y hue s n).initialized = true := by
  simp only [segStep]
  split_ifs with c1 c2 c3 c4
  · rcases h with h | h
    · exact h
    · exact absurd c1 h
  · rfl
  · simpa using c2
  · simpa using c2
  · simpa using c2

theorem segFold_init64 (y hue : 𝔻) (l : List Nat) (s : SegState 𝔻)
    (h : s.initialized = true ∨ ∃ n ∈ l, ¬ (nthVertex y n).x0 < 0.0) : (l.foldl (segStep y hue) s).initialized = true := by
  induction l generalizing s with
  | nil => simpa using h
  | cons a l ih =>
    rw [List.foldl_cons]
    apply ih
    rcases h with h | ⟨n, hn, hv⟩
    · exact .inl (segStep_init64 y hue s a (.inl h))
    · rcases List.mem_cons.1 hn with rfl | hn
      · exact .inl (segStep_init64 y hue s n (.inr hv))
      · exact .inr ⟨n, hn, hv⟩

/-- Solving for a coordinate that is clearly inside the cube. -/
theorem solve_bounded {y c1 c2 k : 𝔻} {v p1 p2 κ : ℝ} (hy : Is y v) (h1 : Is c1 p1) (h2 : Is c2 p2) (hk : Is k κ)
    (b1 : |v - p1| ≤ 150) (b2 : |v - p1 - p2| ≤ 150) (k0 : 7 / 100 ≤ κ)
    (lo : (0 ≤ v ∧ p1 = 0 ∧ p2 = 0) ∨ 1 / 10 ^ 9 ≤ v - p1 - p2) (hi : v - p1 - p2 ≤ κ * (999999 / 10000)) :
    isBounded ((y - c1 - c2) / k) = true := by
  obtain ⟨o1, e1⟩ := rnd_within 150 (by norm_num) b1
  have i1 := hy.sub h1 o1
  have e1 := abs_le.1 e1
  have b2' := abs_le.1 b2
  norm_num at e1
  have b3 : |rnd (v - p1) - p2| ≤ 151 := by rw [abs_le]; constructor <;> linarith
  obtain ⟨o2, e2⟩ := rnd_within 151 (by norm_num) b3
  have i2 := i1.sub h2 o2
  have e2 := abs_le.1 e2
  norm_num at e2
  set N := rnd (rnd (v - p1) - p2) with hN
  have hN0 : 0 ≤ N := by
    rcases lo with ⟨h, r1, r2⟩ | h
    · rw [hN, r1, r2, sub_zero, sub_zero, hy.rep.rnd_eq, hy.rep.rnd_eq]; exact h
    · norm_num at h; linarith
  have hN1 : N / κ ≤ 99.99999 := by
    rw [div_le_iff₀ (by linarith)]
    norm_num at hi ⊢
    linarith
  have hp : 0 ≤ N / κ := div_nonneg hN0 (by linarith)
  have b4 : |N / κ| ≤ 100 := by rw [abs_of_nonneg hp]; norm_num at hN1; linarith
  obtain ⟨o3, -⟩ := rnd_within 100 (by norm_num) b4
  have i3 := i2.div hk (by linarith : κ ≠ 0) o3
  have r100 : Rep (100 : ℝ) := (l100' (L := L)).rep
  have r0 : Rep (0 : ℝ) := (l0' (L := L)).rep
  simp only [isBounded, Bool.and_eq_true, decide_eq_true_eq]
  rw [l0'.le_iff i3, i3.le_iff l100']
  exact ⟨r0.le_rnd hp, r100.rnd_le (by norm_num at hN1; linarith)⟩

/-- A luminance of the cube has a vertex. -/
theorem exists_vertex64 {y : 𝔻} {v : ℝ} (hy : Is y v) (h0 : 0 ≤ v) (h1 : v ≤ 999999 / 10000) :
    ∃ n < 12, ¬ (nthVertex y n).x0 < 0.0 := by
  obtain ⟨kr, ikr, hkr⟩ := is_dec (L := L) (m := 2126) (s := true) (e := 4) (v := 0.2126) (by norm_num) 1 (by norm_num)
    (by norm_num [abs_le])
  obtain ⟨kg, ikg, hkg⟩ := is_dec (L := L) (m := 7152) (s := true) (e := 4) (v := 0.7152) (by norm_num) 1 (by norm_num)
    (by norm_num [abs_le])
  obtain ⟨kb, ikb, hkb⟩ := is_dec (L := L) (m := 722) (s := true) (e := 4) (v := 0.0722) (by norm_num) 1 (by norm_num)
    (by norm_num [abs_le])
  replace hkr : |kr - 0.2126| ≤ 1 / 10 ^ 15 := hkr.trans (by norm_num)
  replace hkg : |kg - 0.7152| ≤ 1 / 10 ^ 15 := hkg.trans (by norm_num)
  replace hkb : |kb - 0.0722| ≤ 1 / 10 ^ 15 := hkb.trans (by norm_num)
  have hkg' := abs_le.1 hkg
  norm_num at hkg'
  change Is (yFromLinrgb : Vec3 𝔻).x0 kr at ikr
  change Is (yFromLinrgb : Vec3 𝔻).x1 kg at ikg
  change Is (yFromLinrgb : Vec3 𝔻).x2 kb at ikb
  rcases le_total v 50 with hc | hc
  · refine ⟨4, by norm_num, ?_⟩
    obtain ⟨p1, i1, e1, q1⟩ := corner_mul (l0' (L := L)) ikr (.inl rfl) hkr (by norm_num) (by norm_num)
    obtain ⟨p2, i2, e2, q2⟩ := corner_mul (l0' (L := L)) ikb (.inl rfl) hkb (by norm_num) (by norm_num)
    have z1 : p1 = 0 := by
      have o := small 1 (by norm_num) (show |(0 : ℝ) * kr| ≤ 2 ^ 1 by norm_num)
      rw [i1.unique (l0'.mul ikr o), zero_mul, rnd_zero]
    have z2 : p2 = 0 := by
      have o := small 1 (by norm_num) (show |(0 : ℝ) * kb| ≤ 2 ^ 1 by norm_num)
      rw [i2.unique (l0'.mul ikb o), zero_mul, rnd_zero]
    have hb : isBounded ((y - 0.0 * (yFromLinrgb : Vec3 𝔻).x0 - 0.0 * (yFromLinrgb : Vec3 𝔻).x2) / (yFromLinrgb : Vec3 𝔻).x1) = true := by
      refine solve_bounded hy i1 i2 ikg ?_ ?_ (by linarith) (.inl ⟨h0, z1, z2⟩) ?_
      · rw [z1, abs_le]; constructor <;> linarith
      · rw [z1, z2, abs_le]; constructor <;> linarith
      · rw [z1, z2]; nlinarith
    simp only [nthVertex, Nat.lt_irrefl, if_false, show (4 : ℕ) < 8 by norm_num, if_true, show 4 % 4 ≤ 1 by norm_num, show 4 % 2 = 0 by norm_num]
    rw [if_pos hb, l0'.lt_iff l0']
    exact lt_irrefl _
  · refine ⟨7, by norm_num, ?_⟩
    obtain ⟨p1, i1, e1, q1⟩ := corner_mul (l100' (L := L)) ikr (.inr rfl) hkr (by norm_num) (by norm_num)
    obtain ⟨p2, i2, e2, q2⟩ := corner_mul (l100' (L := L)) ikb (.inr rfl) hkb (by norm_num) (by norm_num)
    have e1 := abs_le.1 e1
    have e2 := abs_le.1 e2
    norm_num at e1 e2
    have hb : isBounded ((y - 100.0 * (yFromLinrgb : Vec3 𝔻).x0 - 100.0 * (yFromLinrgb : Vec3 𝔻).x2) / (yFromLinrgb : Vec3 𝔻).x1) = true := by
      refine solve_bounded hy i1 i2 ikg ?_ ?_ (by linarith) (.inr ?_) ?_
      · rw [abs_le]; constructor <;> linarith
      · rw [abs_le]; constructor <;> linarith
      · norm_num; linarith
      · norm_num; linarith
    simp only [nthVertex, show ¬ (7 : ℕ) < 4 by norm_num, if_false, show (7 : ℕ) < 8 by norm_num, if_true, show ¬ 7 % 4 ≤ 1 by norm_num,
      show ¬ 7 % 2 = 0 by norm_num]
    rw [if_pos hb, l100'.lt_iff l0']
    norm_num

/-- The two ends of the segment: equal, or two different vertices. -/
theorem segment64 (y hue : 𝔻) : (bisectToSegment y hue).1 = (bisectToSegment y hue).2 ∧
      (bisectToSegment y hue).1 = ⟨-1.0, -1.0, -1.0⟩ ∨
    ∃ v n m A B, n < 12 ∧ m < 12 ∧ Is y v ∧ IsV (bisectToSegment y hue).1 A ∧ IsV (bisectToSegment y hue).2 B ∧
      Vertex64 v n A ∧ Vertex64 v m B ∧ (n = m → A = B) := by
  have h := segFold_ok64 y hue (List.range 12) (fun n hn => List.mem_range.1 hn) segInit (.inl ⟨rfl, rfl, rfl⟩)
  rcases h with ⟨h1, h2, -⟩ | ⟨w, k, m, B, C, hk, hm, iw, e1, e2, iB, iC, hB, hC⟩
  · exact .inl ⟨h1.trans h2.symm, h1⟩
  · refine .inr ⟨w, k, m, B, C, hk, hm, iw, iB, iC, hB, hC, fun h => ?_⟩
    subst h
    funext i
    have h1 := iB i
    have h2 := iC i
    rw [e1] at h1
    rw [e2] at h2
    exact h1.unique h2

/-- The search starts from vertices if the luminance belongs to the cube. -/
theorem segment_some {y : 𝔻} {v : ℝ} (hue : 𝔻) (hy : Is y v) (h0 : 0 ≤ v) (h1 : v ≤ 999999 / 10000) :
    (bisectToSegment y hue).1 ≠ ⟨-1.0, -1.0, -1.0⟩ := by
  obtain ⟨n, hn, hv⟩ := exists_vertex64 hy h0 h1
  have hi := segFold_init64 y hue (List.range 12) segInit (.inr ⟨n, List.mem_range.2 hn, hv⟩)
  have h := segFold_ok64 y hue (List.range 12) (fun n hn => List.mem_range.1 hn) segInit (.inl ⟨rfl, rfl, rfl⟩)
  rcases h with ⟨h1, h2, h3⟩ | ⟨w, k, m, B, C, hk, hm, iw, e1, e2, iB, iC, hB, hC⟩
  · rw [hi] at h3; exact absurd h3 (by decide)
  · intro he
    have h1 : Is (1.0 : 𝔻) 1 := by simpa using lit (L := L) 10 1 true 1 (by norm_num) (by norm_num)
    have h2 := iB 0
    change Is ((bisectToSegment y hue).1.get 0) _ at h2
    rw [he] at h2
    have := h2.unique h1.neg
    have := (hB.range 0).1
    linarith

end Mcu.Lemmas
