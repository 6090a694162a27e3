import Verif.Lemmas.OpponentA
import Verif.Lemmas.OpponentB
import Verif.Lemmas.Precise
import Verif.Lemmas.ChromaGap
import Mathlib.Analysis.SpecialFunctions.Pow.Deriv
import Mathlib.Analysis.Calculus.Deriv.MeanValue

/-! No colour but black has a yellow-blue coordinate near zero: the tests of OpponentA and OpponentB say so for the two
blue channels next to the change of sign, and the coordinate decreases with the blue channel. -/

namespace Mcu.Lemmas

open Mcu.ColorUtils Mcu.MathUtils Props Real

namespace Opp

theorem both_true {b k : Bool} (h : both b k = true) : b = true ∧ k = true := by
  cases b
  · cases h
  · exact ⟨rfl, h⟩

theorem other_true {b k : Bool} (h : other b k = true) : b = true ∨ k = true := by
  cases b
  · exact Or.inr h
  · exact Or.inl rfl

/-! ### Linear light -/

/-- The table of linear light is right. -/
def linOk (c : Nat) : Bool :=
  if c ≤ 10 then decide (lin c * (255 * 1292) ≤ 10000 * c * 2 ^ 42 ∧ 10000 * c * 2 ^ 42 ≤ (lin c + 1) * (255 * 1292))
  else decide (lin c ^ 5 * 53805 ^ 12 ≤ (100 * 2 ^ 42) ^ 5 * (200 * c + 2805) ^ 12 ∧
    (100 * 2 ^ 42) ^ 5 * (200 * c + 2805) ^ 12 ≤ (lin c + 1) ^ 5 * 53805 ^ 12)

theorem lin_ok : ∀ c < 256, linOk c = true := by decide +kernel

theorem lin_bounds {c : Nat} (hc : c < 256) : (lin c : ℝ) ≤ (linearized (c : ℤ) : ℝ) * 2 ^ 42 ∧ (linearized (c : ℤ) : ℝ) * 2 ^ 42 ≤ lin c + 1 := by
  have h := lin_ok c hc
  unfold linOk at h
  split at h
  next h10 =>
    obtain ⟨h1, h2⟩ := of_decide_eq_true h
    have h1' : (lin c : ℝ) * (255 * 1292) ≤ 10000 * c * 2 ^ 42 := by exact_mod_cast h1
    have h2' : (10000 : ℝ) * c * 2 ^ 42 ≤ (lin c + 1) * (255 * 1292) := by exact_mod_cast h2
    rw [linearized_small (by omega)]
    push_cast
    generalize (lin c : ℝ) = l at *
    generalize (c : ℝ) = k at *
    norm_num at *
    constructor <;> linarith
  next h10 =>
    obtain ⟨h1, h2⟩ := of_decide_eq_true h
    have h1' : (lin c : ℝ) ^ 5 * 53805 ^ 12 ≤ (100 * 2 ^ 42) ^ 5 * (200 * c + 2805) ^ 12 := by exact_mod_cast h1
    have h2' : (100 * 2 ^ 42 : ℝ) ^ 5 * (200 * c + 2805) ^ 12 ≤ (lin c + 1) ^ 5 * 53805 ^ 12 := by exact_mod_cast h2
    rw [linearized_large (by omega)]
    unfold gpow
    rw [e24]
    push_cast
    have ec : ((c : ℝ) / 255 + 0.055) / 1.055 = (200 * c + 2805) / 53805 := by norm_num; ring
    rw [ec]
    set v : ℝ := (200 * c + 2805) / 53805 with hv
    have v0 : 0 ≤ v := by positivity
    have hp : (200 * (c : ℝ) + 2805) ^ 12 = v ^ 12 * 53805 ^ 12 := by rw [hv, div_pow]; field_simp
    clear_value v
    rw [hp, ← mul_assoc] at h1' h2'
    have h1' := le_of_mul_le_mul_right h1' (by positivity)
    have h2' := le_of_mul_le_mul_right h2' (by positivity)
    have l1 : (lin c : ℝ) / (100 * 2 ^ 42) ≤ v ^ (((12 : ℕ) : ℝ) / ((5 : ℕ) : ℝ)) :=
      le_rpow_of_pow_le (by norm_num) (by positivity) v0 (by rw [div_pow, div_le_iff₀ (by positivity)]; linarith)
    have l2 : v ^ (((12 : ℕ) : ℝ) / ((5 : ℕ) : ℝ)) ≤ ((lin c : ℝ) + 1) / (100 * 2 ^ 42) :=
      rpow_le_of_le_pow (by norm_num) (by positivity) v0 (by rw [div_pow, le_div_iff₀ (by positivity)]; linarith)
    rw [div_le_iff₀ (by positivity)] at l1
    rw [le_div_iff₀ (by positivity)] at l2
    push_cast at l1 l2
    constructor <;> linarith

/-! ### Powers -/

/-- The denominators of the cone responses. -/
noncomputable def den (t : ℝ) : ℝ := t ^ (0.42 : ℝ) + 27.13

theorem e42 : (0.42 : ℝ) = ((21 : ℕ) : ℝ) / ((50 : ℕ) : ℝ) := by norm_num

theorem ble_pow {q t a b c : Nat} (h : Nat.ble (Nat.pow q a) (Nat.shiftLeft (Nat.pow t b) c) = true) : (q : ℝ) ^ a ≤ (t : ℝ) ^ b * 2 ^ c := by
  have h : q ^ a ≤ Nat.shiftLeft (t ^ b) c := Nat.le_of_ble_eq_true h
  have e : Nat.shiftLeft (t ^ b) c = t ^ b * 2 ^ c := Nat.shiftLeft_eq _ _
  rw [e] at h
  exact_mod_cast h

theorem pow_ble {q t a b c : Nat} (h : Nat.ble (Nat.shiftLeft (Nat.pow t b) c) (Nat.pow q a) = true) : (t : ℝ) ^ b * 2 ^ c ≤ (q : ℝ) ^ a := by
  have h : Nat.shiftLeft (t ^ b) c ≤ q ^ a := Nat.le_of_ble_eq_true h
  have e : Nat.shiftLeft (t ^ b) c = t ^ b * 2 ^ c := Nat.shiftLeft_eq _ _
  rw [e] at h
  exact_mod_cast h

theorem down_spec {t : Nat} {k : Nat → Bool} (h : down t k = true) {τ : ℝ} (ht : (t : ℝ) ≤ τ * 2 ^ 52) :
    ∃ x : Nat, k x = true ∧ 27 ≤ (x : ℝ) / 2 ^ 34 ∧ (x : ℝ) / 2 ^ 34 ≤ den τ := by
  unfold down low at h
  generalize Nat.sub (guess t) 2 = q at h
  obtain ⟨h1, h2⟩ := both_true h
  refine ⟨_, h2, ?_, ?_⟩
  · rw [le_div_iff₀ (by positivity)]
    have : (27 * 2 ^ 34 : ℕ) ≤ q + 466089850961 := by omega
    exact_mod_cast this
  · have h1' := ble_pow h1
    have t0 : (0 : ℝ) ≤ t := Nat.cast_nonneg t
    have τ0 : 0 ≤ τ := by
      by_contra hn
      have : τ * 2 ^ 52 < 0 := mul_neg_of_neg_of_pos (not_le.1 hn) (by positivity)
      linarith
    have hq : (q : ℝ) / 2 ^ 34 ≤ τ ^ (0.42 : ℝ) := by
      rw [e42]
      refine le_rpow_of_pow_le (by norm_num) (by positivity) τ0 ?_
      have h2 : ((t : ℝ) / 2 ^ 52) ^ 21 ≤ τ ^ 21 := pow_le_pow_left₀ (by positivity) (by rw [div_le_iff₀ (by positivity)]; exact ht) 21
      refine le_trans ?_ h2
      rw [div_pow, div_pow, ← pow_mul, ← pow_mul, div_le_div_iff₀ (by positivity) (by positivity)]
      calc (q : ℝ) ^ 50 * 2 ^ (52 * 21) ≤ (t : ℝ) ^ 21 * 2 ^ 608 * 2 ^ (52 * 21) := by gcongr
        _ = (t : ℝ) ^ 21 * 2 ^ (34 * 50) := by rw [mul_assoc, ← pow_add]
    have e : ((Nat.add q 466089850961 : ℕ) : ℝ) / 2 ^ 34 = (q : ℝ) / 2 ^ 34 + 466089850961 / 2 ^ 34 := by
      show ((q + 466089850961 : ℕ) : ℝ) / 2 ^ 34 = _
      push_cast; ring
    rw [e]
    unfold den
    refine add_le_add hq (by norm_num)

theorem up_spec {t : Nat} {k : Nat → Bool} (h : up t k = true) {τ : ℝ} (τ0 : 0 ≤ τ) (ht : τ * 2 ^ 52 ≤ (t : ℝ)) :
    ∃ x : Nat, k x = true ∧ den τ ≤ (x : ℝ) / 2 ^ 34 := by
  unfold up high at h
  generalize Nat.add (guess t) 3 = q at h
  obtain ⟨h1, h2⟩ := both_true h
  refine ⟨_, h2, ?_⟩
  have h1' := pow_ble h1
  have hq : τ ^ (0.42 : ℝ) ≤ (q : ℝ) / 2 ^ 34 := by
    rw [e42]
    refine rpow_le_of_le_pow (by norm_num) (by positivity) τ0 ?_
    have h2 : τ ^ 21 ≤ ((t : ℝ) / 2 ^ 52) ^ 21 := pow_le_pow_left₀ τ0 (by rw [le_div_iff₀ (by positivity)]; exact ht) 21
    refine h2.trans ?_
    rw [div_pow, div_pow, ← pow_mul, ← pow_mul, div_le_div_iff₀ (by positivity) (by positivity)]
    calc (t : ℝ) ^ 21 * 2 ^ (34 * 50) = (t : ℝ) ^ 21 * 2 ^ 608 * 2 ^ (52 * 21) := by rw [mul_assoc, ← pow_add]
      _ ≤ (q : ℝ) ^ 50 * 2 ^ (52 * 21) := by gcongr
  have e : ((Nat.add q 466089850962 : ℕ) : ℝ) / 2 ^ 34 = (q : ℝ) / 2 ^ 34 + 466089850962 / 2 ^ 34 := by
    show ((q + 466089850962 : ℕ) : ℝ) / 2 ^ 34 = _
    push_cast; ring
  rw [e]
  unfold den
  exact add_le_add hq (by norm_num)

/-! ### Stimuli -/

/-- The factors of the stimuli. -/
noncomputable abbrev k0 : ℝ := vc0.fl * vc0.rgbD.x0 / 100
noncomputable abbrev k1 : ℝ := vc0.fl * vc0.rgbD.x1 / 100
noncomputable abbrev k2 : ℝ := vc0.fl * vc0.rgbD.x2 / 100

/-- The stimuli of linear light. -/
noncomputable def s0 (r g b : ℝ) : ℝ := k0 * (0.30269915328759 * r + 0.6023803116433 * g + 0.07047346329738 * b)
noncomputable def s1 (r g b : ℝ) : ℝ := k1 * (0.15374913599554 * r + 0.77736002827076 * g + 0.08535981854956 * b)
noncomputable def s2 (r g b : ℝ) : ℝ := k2 * (0.02796570007202 * r + 0.14784523135458 * g + 0.90895832236388 * b)

theorem sum3_le {a b c r g bl : Nat} {A B C x y z : ℝ} (ha : (a : ℝ) ≤ A * 2 ^ 64) (hb : (b : ℝ) ≤ B * 2 ^ 64) (hc : (c : ℝ) ≤ C * 2 ^ 64)
    (hr : (r : ℝ) ≤ x * 2 ^ 42) (hg : (g : ℝ) ≤ y * 2 ^ 42) (hl : (bl : ℝ) ≤ z * 2 ^ 42) :
    (sum3 a b c r g bl : ℝ) ≤ (A * x + B * y + C * z) * 2 ^ 52 := by
  have e : sum3 a b c r g bl = (a * r + b * g + c * bl) / 2 ^ 54 := Nat.shiftRight_eq_div_pow _ _
  rw [e]
  have h : ((a * r + b * g + c * bl) / 2 ^ 54) * 2 ^ 54 ≤ a * r + b * g + c * bl := Nat.div_mul_le_self _ _
  have h' : (((a * r + b * g + c * bl) / 2 ^ 54 : ℕ) : ℝ) * 2 ^ 54 ≤ a * r + b * g + c * bl := by exact_mod_cast h
  have p {u v : ℕ} {U V : ℝ} (h1 : (u : ℝ) ≤ U * 2 ^ 64) (h2 : (v : ℝ) ≤ V * 2 ^ 42) : (u : ℝ) * v ≤ U * V * 2 ^ 106 := by
    have := mul_le_mul h1 h2 (Nat.cast_nonneg v) ((Nat.cast_nonneg u).trans h1)
    calc (u : ℝ) * v ≤ U * 2 ^ 64 * (V * 2 ^ 42) := this
      _ = U * V * 2 ^ 106 := by ring
  have q1 := p ha hr
  have q2 := p hb hg
  have q3 := p hc hl
  generalize (((a * r + b * g + c * bl) / 2 ^ 54 : ℕ) : ℝ) = w at *
  have : w * 2 ^ 54 ≤ (A * x + B * y + C * z) * 2 ^ 52 * 2 ^ 54 := by
    have e2 : (A * x + B * y + C * z) * 2 ^ 52 * 2 ^ 54 = A * x * 2 ^ 106 + B * y * 2 ^ 106 + C * z * 2 ^ 106 := by ring
    rw [e2]; linarith
  exact le_of_mul_le_mul_right this (by positivity)

theorem le_sum3 {a b c r g bl : Nat} {A B C x y z : ℝ} (A0 : 0 ≤ A) (B0 : 0 ≤ B) (C0 : 0 ≤ C) (x0 : 0 ≤ x) (y0 : 0 ≤ y) (z0 : 0 ≤ z)
    (ha : A * 2 ^ 64 ≤ a) (hb : B * 2 ^ 64 ≤ b) (hc : C * 2 ^ 64 ≤ c)
    (hr : x * 2 ^ 42 ≤ r) (hg : y * 2 ^ 42 ≤ g) (hl : z * 2 ^ 42 ≤ bl) :
    (A * x + B * y + C * z) * 2 ^ 52 ≤ (Nat.succ (sum3 a b c r g bl) : ℝ) := by
  have e : sum3 a b c r g bl = (a * r + b * g + c * bl) / 2 ^ 54 := Nat.shiftRight_eq_div_pow _ _
  rw [e]
  have h : a * r + b * g + c * bl ≤ Nat.succ ((a * r + b * g + c * bl) / 2 ^ 54) * 2 ^ 54 := by
    have h1 := Nat.div_add_mod (a * r + b * g + c * bl) (2 ^ 54)
    have h2 := Nat.mod_lt (a * r + b * g + c * bl) (show 2 ^ 54 > 0 by positivity)
    generalize a * r + b * g + c * bl = n at *
    rw [Nat.succ_mul]; omega
  have h' : (a : ℝ) * r + b * g + c * bl ≤ (Nat.succ ((a * r + b * g + c * bl) / 2 ^ 54) : ℝ) * 2 ^ 54 := by exact_mod_cast h
  have p {u v : ℕ} {U V : ℝ} (U0 : 0 ≤ U) (V0 : 0 ≤ V) (h1 : U * 2 ^ 64 ≤ (u : ℝ)) (h2 : V * 2 ^ 42 ≤ (v : ℝ)) : U * V * 2 ^ 106 ≤ (u : ℝ) * v := by
    have := mul_le_mul h1 h2 (by positivity) (Nat.cast_nonneg u)
    calc U * V * 2 ^ 106 = U * 2 ^ 64 * (V * 2 ^ 42) := by ring
      _ ≤ _ := this
  have q1 := p A0 x0 ha hr
  have q2 := p B0 y0 hb hg
  have q3 := p C0 z0 hc hl
  generalize (Nat.succ ((a * r + b * g + c * bl) / 2 ^ 54) : ℝ) = w at *
  have : (A * x + B * y + C * z) * 2 ^ 52 * 2 ^ 54 ≤ w * 2 ^ 54 := by
    have e2 : (A * x + B * y + C * z) * 2 ^ 52 * 2 ^ 54 = A * x * 2 ^ 106 + B * y * 2 ^ 106 + C * z * 2 ^ 106 := by ring
    rw [e2]; linarith
  exact le_of_mul_le_mul_right this (by positivity)

theorem k_bounds : (0.003967085985 ≤ k0 ∧ k0 ≤ 0.003967085986) ∧ (0.003831622606 ≤ k1 ∧ k1 ≤ 0.003831622607) ∧
    (0.003628263360 ≤ k2 ∧ k2 ≤ 0.003628263361) := by
  obtain ⟨a, b, c⟩ := scale_d16
  have a := abs_le.1 a
  have b := abs_le.1 b
  have c := abs_le.1 c
  unfold k0 k1 k2
  norm_num at *
  refine ⟨⟨?_, ?_⟩, ⟨?_, ?_⟩, ?_, ?_⟩ <;> linarith [a.1, a.2, b.1, b.2, c.1, c.2]

section

variable {r g b : Nat}

/-- Linear light of a channel. -/
noncomputable abbrev ll (c : Nat) : ℝ := (linearized (c : ℤ) : ℝ)

theorem ll_range {c : Nat} (hc : c < 256) : 0 ≤ ll c ∧ ll c ≤ 100 := by
  have := linearized_range (c : ℤ) (by omega) (by omega)
  exact ⟨this.1, this.2⟩

theorem lo0_le (hr : r < 256) (hg : g < 256) (hb : b < 256) : (lo0 r g b : ℝ) ≤ s0 (ll r) (ll g) (ll b) * 2 ^ 52 := by
  have k := scale_d16.1
  have k := (abs_le.1 k).1
  have h := sum3_le (a := 22151469518486842) (b := 44082082711429518) (c := 5157235351137234) (A := k0 * 0.30269915328759) (B := k0 * 0.6023803116433) (C := k0 * 0.07047346329738)
    (by unfold k0; norm_num at k ⊢; linarith) (by unfold k0; norm_num at k ⊢; linarith) (by unfold k0; norm_num at k ⊢; linarith)
    (lin_bounds hr).1 (lin_bounds hg).1 (lin_bounds hb).1
  have e : s0 (ll r) (ll g) (ll b) = k0 * 0.30269915328759 * ll r + k0 * 0.6023803116433 * ll g + k0 * 0.07047346329738 * ll b := by unfold s0; ring
  rw [e]
  exact h

theorem le_hi0 (hr : r < 256) (hg : g < 256) (hb : b < 256) : s0 (ll r) (ll g) (ll b) * 2 ^ 52 ≤ (hi0 r g b : ℝ) := by
  have k := scale_d16.1
  have k := (abs_le.1 k).2
  have kp : 0 ≤ k0 := le_trans (by norm_num) k_bounds.1.1
  have h := le_sum3 (a := 22151469518487242) (b := 44082082711429918) (c := 5157235351137634) (A := k0 * 0.30269915328759) (B := k0 * 0.6023803116433) (C := k0 * 0.07047346329738)
    (r := Nat.succ (lin r)) (g := Nat.succ (lin g)) (bl := Nat.succ (lin b))
    (by positivity) (by positivity) (by positivity) (ll_range hr).1 (ll_range hg).1 (ll_range hb).1
    (by unfold k0; norm_num at k ⊢; linarith) (by unfold k0; norm_num at k ⊢; linarith) (by unfold k0; norm_num at k ⊢; linarith)
    (by push_cast; exact (lin_bounds hr).2) (by push_cast; exact (lin_bounds hg).2) (by push_cast; exact (lin_bounds hb).2)
  have e : s0 (ll r) (ll g) (ll b) = k0 * 0.30269915328759 * ll r + k0 * 0.6023803116433 * ll g + k0 * 0.07047346329738 * ll b := by unfold s0; ring
  rw [e]
  exact h

theorem lo1_le (hr : r < 256) (hg : g < 256) (hb : b < 256) : (lo1 r g b : ℝ) ≤ s1 (ll r) (ll g) (ll b) * 2 ^ 52 := by
  have k := scale_d16.2.1
  have k := (abs_le.1 k).1
  have h := sum3_le (a := 10867136777397764) (b := 54944554307904008) (c := 6033314057119763) (A := k1 * 0.15374913599554) (B := k1 * 0.77736002827076) (C := k1 * 0.08535981854956)
    (by unfold k1; norm_num at k ⊢; linarith) (by unfold k1; norm_num at k ⊢; linarith) (by unfold k1; norm_num at k ⊢; linarith)
    (lin_bounds hr).1 (lin_bounds hg).1 (lin_bounds hb).1
  have e : s1 (ll r) (ll g) (ll b) = k1 * 0.15374913599554 * ll r + k1 * 0.77736002827076 * ll g + k1 * 0.08535981854956 * ll b := by unfold s1; ring
  rw [e]
  exact h

theorem le_hi1 (hr : r < 256) (hg : g < 256) (hb : b < 256) : s1 (ll r) (ll g) (ll b) * 2 ^ 52 ≤ (hi1 r g b : ℝ) := by
  have k := scale_d16.2.1
  have k := (abs_le.1 k).2
  have kp : 0 ≤ k1 := le_trans (by norm_num) k_bounds.2.1.1
  have h := le_sum3 (a := 10867136777398164) (b := 54944554307904408) (c := 6033314057120163) (A := k1 * 0.15374913599554) (B := k1 * 0.77736002827076) (C := k1 * 0.08535981854956)
    (r := Nat.succ (lin r)) (g := Nat.succ (lin g)) (bl := Nat.succ (lin b))
    (by positivity) (by positivity) (by positivity) (ll_range hr).1 (ll_range hg).1 (ll_range hb).1
    (by unfold k1; norm_num at k ⊢; linarith) (by unfold k1; norm_num at k ⊢; linarith) (by unfold k1; norm_num at k ⊢; linarith)
    (by push_cast; exact (lin_bounds hr).2) (by push_cast; exact (lin_bounds hg).2) (by push_cast; exact (lin_bounds hb).2)
  have e : s1 (ll r) (ll g) (ll b) = k1 * 0.15374913599554 * ll r + k1 * 0.77736002827076 * ll g + k1 * 0.08535981854956 * ll b := by unfold s1; ring
  rw [e]
  exact h

theorem lo2_le (hr : r < 256) (hg : g < 256) (hb : b < 256) : (lo2 r g b : ℝ) ≤ s2 (ll r) (ll g) (ll b) * 2 ^ 52 := by
  have k := scale_d16.2.2
  have k := (abs_le.1 k).1
  have h := sum3_le (a := 1871734395879039) (b := 9895228944043281) (c := 60836258416836728) (A := k2 * 0.02796570007202) (B := k2 * 0.14784523135458) (C := k2 * 0.90895832236388)
    (by unfold k2; norm_num at k ⊢; linarith) (by unfold k2; norm_num at k ⊢; linarith) (by unfold k2; norm_num at k ⊢; linarith)
    (lin_bounds hr).1 (lin_bounds hg).1 (lin_bounds hb).1
  have e : s2 (ll r) (ll g) (ll b) = k2 * 0.02796570007202 * ll r + k2 * 0.14784523135458 * ll g + k2 * 0.90895832236388 * ll b := by unfold s2; ring
  rw [e]
  exact h

theorem le_hi2 (hr : r < 256) (hg : g < 256) (hb : b < 256) : s2 (ll r) (ll g) (ll b) * 2 ^ 52 ≤ (hi2 r g b : ℝ) := by
  have k := scale_d16.2.2
  have k := (abs_le.1 k).2
  have kp : 0 ≤ k2 := le_trans (by norm_num) k_bounds.2.2.1
  have h := le_sum3 (a := 1871734395879439) (b := 9895228944043681) (c := 60836258416837128) (A := k2 * 0.02796570007202) (B := k2 * 0.14784523135458) (C := k2 * 0.90895832236388)
    (r := Nat.succ (lin r)) (g := Nat.succ (lin g)) (bl := Nat.succ (lin b))
    (by positivity) (by positivity) (by positivity) (ll_range hr).1 (ll_range hg).1 (ll_range hb).1
    (by unfold k2; norm_num at k ⊢; linarith) (by unfold k2; norm_num at k ⊢; linarith) (by unfold k2; norm_num at k ⊢; linarith)
    (by push_cast; exact (lin_bounds hr).2) (by push_cast; exact (lin_bounds hg).2) (by push_cast; exact (lin_bounds hb).2)
  have e : s2 (ll r) (ll g) (ll b) = k2 * 0.02796570007202 * ll r + k2 * 0.14784523135458 * ll g + k2 * 0.90895832236388 * ll b := by unfold s2; ring
  rw [e]
  exact h

end

/-! ### The coordinate -/

/-- Nine times the yellow-blue coordinate. -/
noncomputable def yb (r g b : ℝ) : ℝ :=
  400 * 27.13 * (2 / den (s2 r g b) - 1 / den (s0 r g b) - 1 / den (s1 r g b))

theorem den_ge {t : ℝ} (h : 0 ≤ t) : 27.13 ≤ den t := by
  unfold den
  have : 0 ≤ t ^ (0.42 : ℝ) := by positivity
  linarith

theorem den_le {t : ℝ} (h : 0 ≤ t) (h1 : t ≤ 0.41) : den t ≤ 27.83 := by
  unfold den
  have : t ^ (0.42 : ℝ) ≤ 0.7 := by
    rw [e42]
    refine rpow_le_of_le_pow (by norm_num) (by norm_num) h ?_
    exact (pow_le_pow_left₀ h h1 21).trans (by norm_num)
  norm_num at this ⊢; linarith

theorem s_range {r g b : ℝ} (hr : 0 ≤ r ∧ r ≤ 100) (hg : 0 ≤ g ∧ g ≤ 100) (hb : 0 ≤ b ∧ b ≤ 100) :
    (0 ≤ s0 r g b ∧ s0 r g b ≤ 0.41) ∧ (0 ≤ s1 r g b ∧ s1 r g b ≤ 0.41) ∧ (0 ≤ s2 r g b ∧ s2 r g b ≤ 0.41) := by
  obtain ⟨a, b', c⟩ := k_bounds
  have key {k u x y z : ℝ} (hk : 0 ≤ k) (hu : k ≤ u) (x0 : 0 ≤ x) (y0 : 0 ≤ y) (z0 : 0 ≤ z) (h : u * (x * 100 + y * 100 + z * 100) ≤ 0.41) :
      0 ≤ k * (x * r + y * g + z * b) ∧ k * (x * r + y * g + z * b) ≤ 0.41 := by
    obtain ⟨r0, r1⟩ := hr; obtain ⟨g0, g1⟩ := hg; obtain ⟨b0, b1⟩ := hb
    refine ⟨by positivity, le_trans ?_ h⟩
    gcongr
    exact hk.trans hu
  refine ⟨key (le_trans (by norm_num) a.1) a.2 ?_ ?_ ?_ ?_, key (le_trans (by norm_num) b'.1) b'.2 ?_ ?_ ?_ ?_, key (le_trans (by norm_num) c.1) c.2 ?_ ?_ ?_ ?_⟩ <;> norm_num

theorem yellow_real {x y z a b c : ℝ} (x0 : 27 ≤ x) (xa : x ≤ a) (y0 : 27 ≤ y) (yb : y ≤ b) (c0 : 27 ≤ c) (cz : c ≤ z) (a1 : a ≤ 27.83) (b1 : b ≤ 27.83)
    (h : z * (x + y) + 0.0000019 ≤ 2 * x * y) : 0.00000081 ≤ 400 * 27.13 * (2 / c - 1 / a - 1 / b) := by
  have hx : 0 < x := by linarith
  have hy : 0 < y := by linarith
  have hc : 0 < c := by linarith
  have hz : 0 < z := by linarith
  have ia : 1 / a ≤ 1 / x := one_div_le_one_div_of_le hx xa
  have ib : 1 / b ≤ 1 / y := one_div_le_one_div_of_le hy yb
  have ic : 1 / z ≤ 1 / c := one_div_le_one_div_of_le hc cz
  have x1 := xa.trans a1
  have y1 := yb.trans b1
  have z1 : z ≤ 27.83 := by
    by_contra hn
    have hn := not_le.1 hn
    norm_num at h x1 y1 hn
    nlinarith
  have e : 2 / z - 1 / x - 1 / y = (2 * x * y - z * (x + y)) / (x * y * z) := by field_simp; ring
  have hd : x * y * z ≤ 27.83 * 27.83 * 27.83 := by gcongr
  have f : 0.0000019 / (27.83 * 27.83 * 27.83) ≤ (2 * x * y - z * (x + y)) / (x * y * z) :=
    div_le_div₀ (le_trans (by norm_num) (show (0.0000019 : ℝ) ≤ 2 * x * y - z * (x + y) by linarith)) (by linarith) (by positivity) hd
  rw [← e] at f
  have e2 : 2 / c = 2 * (1 / c) := by ring
  have e3 : 2 / z = 2 * (1 / z) := by ring
  rw [e2]
  rw [e3] at f
  norm_num at f ia ib ic ⊢
  linarith

theorem blue_real {x y z a b c : ℝ} (ax : a ≤ x) (a0 : 27.13 ≤ a) (b0 : 27.13 ≤ b) (bY : b ≤ y) (z0 : 27 ≤ z) (zc : z ≤ c) (c1 : c ≤ 27.83)
    (h : 2 * x * y + 0.0000019 ≤ z * (x + y)) : 400 * 27.13 * (2 / c - 1 / a - 1 / b) ≤ -0.00000081 := by
  have ha : 0 < a := by norm_num at a0; linarith
  have hb : 0 < b := by norm_num at b0; linarith
  have hx : 0 < x := by linarith
  have hy : 0 < y := by linarith
  have hz : 0 < z := by linarith
  have hc : 0 < c := by linarith
  have ia : 1 / x ≤ 1 / a := one_div_le_one_div_of_le ha ax
  have ib : 1 / y ≤ 1 / b := one_div_le_one_div_of_le hb bY
  have ic : 1 / c ≤ 1 / z := one_div_le_one_div_of_le hz zc
  have z1 := zc.trans c1
  have x1 : x ≤ 28.6 := by
    by_contra hn
    have hn := not_le.1 hn
    have := a0.trans ax
    have := b0.trans bY
    norm_num at *
    nlinarith
  have y1 : y ≤ 28.6 := by
    by_contra hn
    have hn := not_le.1 hn
    have := a0.trans ax
    have := b0.trans bY
    norm_num at *
    nlinarith
  have e : 1 / x + 1 / y - 2 / z = (z * (x + y) - 2 * x * y) / (x * y * z) := by field_simp; ring
  have hd : x * y * z ≤ 28.6 * 28.6 * 27.83 := by gcongr
  have f : 0.0000019 / (28.6 * 28.6 * 27.83) ≤ (z * (x + y) - 2 * x * y) / (x * y * z) :=
    div_le_div₀ (le_trans (by norm_num) (show (0.0000019 : ℝ) ≤ z * (x + y) - 2 * x * y by linarith)) (by linarith) (by positivity) hd
  rw [← e] at f
  have e2 : 2 / c = 2 * (1 / c) := by ring
  have e3 : 2 / z = 2 * (1 / z) := by ring
  rw [e2]
  rw [e3] at f
  norm_num at f ia ib ic ⊢
  linarith

theorem scale34 {x y z : Nat} (h : z * (x + y) + 560781019840771 ≤ 2 * x * y) :
    (z : ℝ) / 2 ^ 34 * ((x : ℝ) / 2 ^ 34 + (y : ℝ) / 2 ^ 34) + 0.0000019 ≤ 2 * ((x : ℝ) / 2 ^ 34) * ((y : ℝ) / 2 ^ 34) := by
  have h' : (z : ℝ) * (x + y) + 560781019840771 ≤ 2 * x * y := by exact_mod_cast h
  have := div_le_div_of_nonneg_right h' (show (0 : ℝ) ≤ 2 ^ 68 by positivity)
  have e1 : (z : ℝ) / 2 ^ 34 * ((x : ℝ) / 2 ^ 34 + (y : ℝ) / 2 ^ 34) = z * (x + y) / 2 ^ 68 := by ring
  have e2 : 2 * ((x : ℝ) / 2 ^ 34) * ((y : ℝ) / 2 ^ 34) = 2 * x * y / 2 ^ 68 := by ring
  rw [e1, e2]
  rw [add_div] at this
  refine le_trans ?_ this
  gcongr
  norm_num

theorem scale34' {x y z : Nat} (h : 2 * x * y + 560781019840771 ≤ z * (x + y)) :
    2 * ((x : ℝ) / 2 ^ 34) * ((y : ℝ) / 2 ^ 34) + 0.0000019 ≤ (z : ℝ) / 2 ^ 34 * ((x : ℝ) / 2 ^ 34 + (y : ℝ) / 2 ^ 34) := by
  have h' : 2 * (x : ℝ) * y + 560781019840771 ≤ z * (x + y) := by exact_mod_cast h
  have := div_le_div_of_nonneg_right h' (show (0 : ℝ) ≤ 2 ^ 68 by positivity)
  have e1 : (z : ℝ) / 2 ^ 34 * ((x : ℝ) / 2 ^ 34 + (y : ℝ) / 2 ^ 34) = z * (x + y) / 2 ^ 68 := by ring
  have e2 : 2 * ((x : ℝ) / 2 ^ 34) * ((y : ℝ) / 2 ^ 34) = 2 * x * y / 2 ^ 68 := by ring
  rw [e1, e2]
  rw [add_div] at this
  refine le_trans ?_ this
  gcongr
  norm_num

theorem yellow_sound {r g b : Nat} (hr : r < 256) (hg : g < 256) (hb : b < 256) (h : yellow r g b = true) :
    0.00000081 ≤ yb (ll r) (ll g) (ll b) := by
  obtain ⟨t0, t1, t2⟩ := s_range (ll_range hr) (ll_range hg) (ll_range hb)
  unfold yellow at h
  obtain ⟨x, h, x0, xa⟩ := down_spec h (lo0_le hr hg hb)
  obtain ⟨y, h, y0, ya⟩ := down_spec h (lo1_le hr hg hb)
  obtain ⟨z, h, za⟩ := up_spec h t2.1 (le_hi2 hr hg hb)
  have h : z * (x + y) + 560781019840771 ≤ 2 * x * y := Nat.le_of_ble_eq_true h
  exact yellow_real x0 xa y0 ya (le_trans (by norm_num) (den_ge t2.1)) za (den_le t0.1 t0.2) (den_le t1.1 t1.2) (scale34 h)

theorem blue_sound {r g b : Nat} (hr : r < 256) (hg : g < 256) (hb : b < 256) (h : blue r g b = true) :
    yb (ll r) (ll g) (ll b) ≤ -0.00000081 := by
  obtain ⟨t0, t1, t2⟩ := s_range (ll_range hr) (ll_range hg) (ll_range hb)
  unfold blue at h
  obtain ⟨x, h, xa⟩ := up_spec h t0.1 (le_hi0 hr hg hb)
  obtain ⟨y, h, ya⟩ := up_spec h t1.1 (le_hi1 hr hg hb)
  obtain ⟨z, h, z0, za⟩ := down_spec h (lo2_le hr hg hb)
  have h : 2 * x * y + 560781019840771 ≤ z * (x + y) := Nat.le_of_ble_eq_true h
  exact blue_real xa (den_ge t0.1) (den_ge t1.1) ya z0 za (den_le t2.1 t2.2) (scale34' h)

end Opp

end Mcu.Lemmas
