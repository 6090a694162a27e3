import Verif.Lemmas.F64SelfTerms

/-! From the luminance of a colour to its tone and back, in IEEE-754 binary64. -/

namespace Mcu.Lemmas

open Mcu.Ieee Props Props.Binary64 MathUtils ColorUtils Real

variable {L : Libm}

local notation "𝔻" => F64 L

theorem rl_e : Rl (216.0 / 24389.0 : 𝔻) (216 / 24389) (1 / 10 ^ 15) :=
  (l216 (L := L)).rl.div l24389.rl (by norm_num) (by norm_num) le_rfl le_rfl (by norm_num) (by norm_num) (by norm_num) _ (by norm_num)

theorem rl_kappa : Rl (24389.0 / 27.0 : 𝔻) (24389 / 27) (1 / 10 ^ 15) :=
  (l24389 (L := L)).rl.div l27.rl (by norm_num) (by norm_num) le_rfl le_rfl (by norm_num) (by norm_num) (by norm_num) _ (by norm_num)

theorem ap_third' : Ap (1.0 / 3.0 : 𝔻) (1 / 3) (4 / 10 ^ 16) := by
  have l3 : Is (3.0 : 𝔻) 3 := by simpa using lit (L := L) 30 1 true 3 (by norm_num) (by norm_num)
  obtain ⟨v, iv, hv⟩ := (l1 (L := L)).rl.div l3.rl (by norm_num) (by norm_num) le_rfl le_rfl (by norm_num) (by norm_num) (by norm_num) (1 / 10 ^ 15) (by norm_num)
  exact ⟨v, iv, hv.trans (by norm_num)⟩

theorem labF_sharp (hL : L.PowOk) {x : 𝔻} {τ : ℝ} (ix : Is x τ) (h0 : 2 / 10 ^ 5 ≤ τ) (h1 : τ ≤ 1.0001) : ∃ φ, Is (labF x) φ ∧
    ((216 / 24389 * (1 - 1 / 10 ^ 15) ≤ τ ∧ |φ - τ ^ (1 / 3 : ℝ)| ≤ 1.04 / 10 ^ 13 * τ ^ (1 / 3 : ℝ)) ∨
     (τ ≤ 216 / 24389 * (1 + 1 / 10 ^ 15) ∧ |φ - (24389 / 27 * τ + 16) / 116| ≤ 1 / 10 ^ 15)) := by
  obtain ⟨es, ie, he⟩ := rl_e (L := L)
  have he := abs_le.1 he
  have tp : 0 < τ := lt_of_lt_of_le (by norm_num) h0
  simp only [labF]
  by_cases hb : x > (216.0 / 24389.0 : 𝔻)
  · rw [if_pos hb]
    have hb' : es < τ := by rwa [gt_iff_lt, ie.lt_iff ix] at hb
    obtain ⟨φ, iφ, hφ⟩ := ix.rl.powT hL ap_third' (by norm_num) (le_trans (by norm_num) h0) (h1.trans (by norm_num)) (by norm_num) (by norm_num)
      (log_within 3 (by norm_num at he ⊢; linarith) (h1.trans (by norm_num))) (1.04 / 10 ^ 13) (by norm_num) (by norm_num)
    exact ⟨φ, iφ, .inl ⟨by linarith, hφ⟩⟩
  · rw [if_neg hb]
    have hb' : τ ≤ es := by rw [gt_iff_lt, ie.lt_iff ix] at hb; exact not_lt.1 hb
    have t1 : τ ≤ 0.01 := by norm_num at he ⊢; linarith
    have m1 := rl_kappa.mul ix.rl (by norm_num) tp (by norm_num) le_rfl (by norm_num at h0 ⊢; linarith) (by norm_num at t1 ⊢; linarith) (by norm_num) (2.1 / 10 ^ 15) (by norm_num)
    have m2 := m1.add (l16 (L := L)).rl (by positivity) (by norm_num) (by norm_num) (by norm_num) (by norm_num; linarith) (by norm_num at t1 ⊢; linarith) (by norm_num) (3.2 / 10 ^ 15) (by norm_num)
    obtain ⟨φ, iφ, hφ⟩ := m2.div (l116 (L := L)).rl (by positivity) (by norm_num) (by norm_num) le_rfl (by norm_num; linarith) (by norm_num at t1 ⊢; linarith) (by norm_num) (4.6 / 10 ^ 15) (by norm_num)
    refine ⟨φ, iφ, .inr ⟨by linarith, hφ.trans ?_⟩⟩
    norm_num at t1 ⊢; linarith

theorem mid_chain {f : 𝔻} {φ : ℝ} (i : Is f φ) (h0 : 0.13 ≤ φ) (h1 : φ ≤ 1.001) : ∃ φ', Is ((116.0 * f - 16.0 + 16.0) / 116.0) φ' ∧ |φ' - φ| ≤ 1.4 / 10 ^ 15 := by
  have i116 := l116 (L := L)
  have i16 := l16 (L := L)
  have a1 := i116.ap.mulS i.ap 116 1.001 117 (2.4 / 10 ^ 14) (by norm_num [abs_of_pos]) (by rw [abs_le]; constructor <;> linarith) (by norm_num) (by norm_num) (by norm_num)
  have a2 := a1.subS i16.ap 101 (4.5 / 10 ^ 14) (by
    have : |116 * φ - 16| ≤ 100.5 := by rw [abs_le]; norm_num at *; constructor <;> linarith
    norm_num at *; linarith) (by norm_num) (by norm_num)
  have a3 := a2.addS i16.ap 117 (7 / 10 ^ 14) (by
    have : |116 * φ - 16 + 16| ≤ 116.5 := by rw [abs_le]; norm_num at *; constructor <;> linarith
    norm_num at *; linarith) (by norm_num) (by norm_num)
  obtain ⟨v, iv, hv⟩ := a3
  rw [sub_add_cancel] at hv
  have hv' := abs_le.1 hv
  obtain ⟨φ', iφ, hφ⟩ := ap_rndS (B := 1.01) (t := φ) (η := 1.4 / 10 ^ 15) (fun h => iv.div i116 (by norm_num) h) (a := 6.1 / 10 ^ 16)
    (by rw [abs_le]; norm_num at *; constructor <;> linarith) (by rw [abs_le]; norm_num at *; constructor <;> linarith) (by norm_num) (by norm_num)
  exact ⟨φ', iφ, hφ⟩

theorem labInvf_sharp {f : 𝔻} {φ : ℝ} (i : Is f φ) (h0 : 0.018 ≤ 116 * φ - 16) (h1 : φ ≤ 1.01) : ∃ θ, Is (labInvf f) θ ∧
    ((216 / 24389 * (1 - 4 / 10 ^ 15) ≤ φ ^ 3 ∧ |θ - φ ^ 3| ≤ 3 / 10 ^ 15 * φ ^ 3) ∨
     (φ ^ 3 ≤ 216 / 24389 * (1 + 4 / 10 ^ 15) ∧ |θ - (116 * φ - 16) / (24389 / 27)| ≤ 5 / 10 ^ 13 * ((116 * φ - 16) / (24389 / 27)))) := by
  obtain ⟨es, ie, he⟩ := rl_e (L := L)
  have he := abs_le.1 he
  have p0 : 0.13 ≤ φ := by norm_num at h0 ⊢; linarith
  have pp : 0 < φ := lt_of_lt_of_le (by norm_num) p0
  have q0 := mul_le_mul p0 p0 (by norm_num) pp.le
  have q1 := mul_le_mul h1 h1 pp.le (by norm_num)
  have c0 := mul_le_mul q0 p0 (by norm_num) (by positivity)
  have c1 := mul_le_mul q1 h1 pp.le (by norm_num)
  obtain ⟨w, iw, hw⟩ := (i.rl.mul i.rl pp pp le_rfl le_rfl (le_trans (by norm_num) q0) (q1.trans (by norm_num)) (by norm_num) (1 / 10 ^ 15) (by norm_num)).mul i.rl
    (by positivity) pp (by norm_num) le_rfl (le_trans (by norm_num) c0) (c1.trans (by norm_num)) (by norm_num) (2.1 / 10 ^ 15) (by norm_num)
  rw [show φ * φ * φ = φ ^ 3 by ring] at hw
  have hw' := abs_le.1 hw
  have c3 : 0 < φ ^ 3 := by positivity
  simp only [labInvf]
  by_cases hb : f * f * f > (216.0 / 24389.0 : 𝔻)
  · rw [if_pos hb]
    have hb' : es < w := by rwa [gt_iff_lt, ie.lt_iff iw] at hb
    refine ⟨w, iw, .inl ⟨?_, hw.trans (mul_le_mul_of_nonneg_right (by norm_num) c3.le)⟩⟩
    norm_num at he hw' ⊢
    linarith
  · rw [if_neg hb]
    have hb' : w ≤ es := by rw [gt_iff_lt, ie.lt_iff iw] at hb; exact not_lt.1 hb
    have c4 : φ ^ 3 ≤ 216 / 24389 * (1 + 4 / 10 ^ 15) := by norm_num at he hw' ⊢; linarith
    have p1 : φ ≤ 0.21 := by
      by_contra hh
      push Not at hh
      have := pow_le_pow_left₀ (by norm_num) hh.le 3
      norm_num at this c4; linarith
    have i116 := l116 (L := L)
    have i16 := l16 (L := L)
    have a1 := i116.ap.mulS i.ap 116 0.21 25 (5.1 / 10 ^ 15) (by norm_num [abs_of_pos]) (by rw [abs_le]; constructor <;> linarith) (by norm_num) (by norm_num) (by norm_num)
    have a2 := a1.subS i16.ap 9 (7 / 10 ^ 15) (by
      have : |116 * φ - 16| ≤ 8.5 := by rw [abs_le]; norm_num at *; constructor <;> linarith
      norm_num at *; linarith) (by norm_num) (by norm_num)
    obtain ⟨v, iv, hv⟩ := a2
    have r : Rl (116.0 * f - 16.0) (116 * φ - 16) (4 / 10 ^ 13) := ⟨v, iv, hv.trans (by norm_num at h0 ⊢; linarith)⟩
    obtain ⟨θ, iθ, hθ⟩ := r.div rl_kappa (lt_of_lt_of_le (by norm_num) h0) (by norm_num) (by norm_num) (by norm_num) (by norm_num at h0 ⊢; linarith) (by norm_num at p1 ⊢; linarith) (by norm_num) (5 / 10 ^ 13) (by norm_num)
    exact ⟨θ, iθ, .inr ⟨c4, hθ⟩⟩

/-! ### Real inequalities -/

theorem cube_back {a s ε : ℝ} (a0 : 0 < a) (s0 : 0 < s) (h : |a ^ 3 - s ^ 3| ≤ ε * s ^ 3) : |a - s| ≤ ε * s := by
  have e : a ^ 3 - s ^ 3 = (a - s) * (a ^ 2 + a * s + s ^ 2) := by ring
  rw [e, abs_mul, abs_of_pos (show 0 < a ^ 2 + a * s + s ^ 2 by positivity)] at h
  have h2 : |a - s| * s ^ 2 ≤ |a - s| * (a ^ 2 + a * s + s ^ 2) := mul_le_mul_of_nonneg_left (by have := mul_pos a0 s0; nlinarith [sq_nonneg a]) (abs_nonneg _)
  have h3 : |a - s| * s ^ 2 ≤ (ε * s) * s ^ 2 := by linarith
  exact le_of_mul_le_mul_right h3 (by positivity)

theorem cube_rel {a s ε η : ℝ} (s0 : 0 < s) (ε0 : 0 ≤ ε) (h : |a - s| ≤ ε * s) (hη : ε + ε + ε * ε + ε + (ε + ε + ε * ε) * ε ≤ η) : |a ^ 3 - s ^ 3| ≤ η * s ^ 3 := by
  have := rel_mul (rel_mul h h s0 s0 le_rfl) h (by positivity) s0 hη
  rw [show a ^ 3 = a * a * a by ring, show s ^ 3 = s * s * s by ring]
  exact this

theorem tone_real {τ φ φ' θ : ℝ} (h0 : 2 / 10 ^ 5 ≤ τ) (hm : |φ' - φ| ≤ 1.4 / 10 ^ 15)
    (h1 : (216 / 24389 * (1 - 1 / 10 ^ 15) ≤ τ ∧ |φ - τ ^ (1 / 3 : ℝ)| ≤ 1.04 / 10 ^ 13 * τ ^ (1 / 3 : ℝ)) ∨
     (τ ≤ 216 / 24389 * (1 + 1 / 10 ^ 15) ∧ |φ - (24389 / 27 * τ + 16) / 116| ≤ 1 / 10 ^ 15))
    (h2 : (216 / 24389 * (1 - 4 / 10 ^ 15) ≤ φ' ^ 3 ∧ |θ - φ' ^ 3| ≤ 3 / 10 ^ 15 * φ' ^ 3) ∨
     (φ' ^ 3 ≤ 216 / 24389 * (1 + 4 / 10 ^ 15) ∧ |θ - (116 * φ' - 16) / (24389 / 27)| ≤ 5 / 10 ^ 13 * ((116 * φ' - 16) / (24389 / 27)))) :
    |θ - τ| ≤ 2 / 10 ^ 11 * τ := by
  have tp : 0 < τ := lt_of_lt_of_le (by norm_num) h0
  have hm' := abs_le.1 hm
  rcases h1 with ⟨t1, f1⟩ | ⟨t1, f1⟩
  · have c3 : (τ ^ (1 / 3 : ℝ)) ^ 3 = τ := by
      rw [← rpow_natCast, ← rpow_mul tp.le]; norm_num
    have cp : 0 < τ ^ (1 / 3 : ℝ) := rpow_pos_of_pos tp _
    generalize τ ^ (1 / 3 : ℝ) = c at *
    have c0 : 0.2 ≤ c := by
      by_contra hh
      push Not at hh
      have := pow_le_pow_left₀ cp.le hh.le 3
      rw [c3] at this
      norm_num at this t1; linarith
    have fc : |φ' - c| ≤ 1.12 / 10 ^ 13 * c := by
      have := abs_le.1 f1
      rw [abs_le]; norm_num at *; constructor <;> linarith
    have fc3 := cube_rel cp (by norm_num) fc (η := 3.4 / 10 ^ 13) (by norm_num)
    rw [c3] at fc3
    have fp : 0 < φ' := by have := abs_le.1 fc; norm_num at this; linarith
    rcases h2 with ⟨-, g1⟩ | ⟨g0, g1⟩
    · have := rel_trans g1 fc3 tp (by norm_num) (η := 2 / 10 ^ 11) (by norm_num)
      exact this
    · have fc3' := abs_le.1 fc3
      have te : |τ - 216 / 24389| ≤ 4 / 10 ^ 13 * (216 / 24389) := by rw [abs_le]; norm_num at *; constructor <;> linarith
      have te' := abs_le.1 te
      have fs : |φ' ^ 3 - (6 / 29) ^ 3| ≤ 8 / 10 ^ 13 * (6 / 29) ^ 3 := by
        rw [abs_le]; norm_num at *; constructor <;> linarith
      have := abs_le.1 (cube_back fp (by norm_num) fs)
      have g1 := abs_le.1 g1
      rw [abs_le]; norm_num at *; constructor <;> linarith
  · have f1' := abs_le.1 f1
    rcases h2 with ⟨g0, g1⟩ | ⟨-, g1⟩
    · have up : φ' ≤ 6 / 29 + 3 / 10 ^ 15 := by norm_num at *; linarith
      have fp : 0 < φ' := by norm_num at *; linarith
      have lo : 6 / 29 - 1 / 10 ^ 15 ≤ φ' := by
        by_contra hh
        push Not at hh
        have := pow_le_pow_left₀ fp.le hh.le 3
        norm_num at this g0; linarith
      have fs : |φ' - 6 / 29| ≤ 2 / 10 ^ 14 * (6 / 29) := by rw [abs_le]; norm_num at *; constructor <;> linarith
      have f3 := abs_le.1 (cube_rel (by norm_num) (by norm_num) fs (η := 7 / 10 ^ 14) (by norm_num))
      have g1 := abs_le.1 g1
      rw [abs_le]; norm_num at *; constructor <;> linarith
    · have g1 := abs_le.1 g1
      rw [abs_le]; norm_num at *; constructor <;> linarith

/-- The luminance is recovered from the tone. -/
theorem tone_sharp (hL : L.PowOk) {x : 𝔻} {τ : ℝ} (ix : Is x τ) (h0 : 2.08 / 10 ^ 5 ≤ τ) (h1 : τ ≤ 1.0001) :
    ∃ θ, Is (labInvf ((116.0 * labF x - 16.0 + 16.0) / 116.0)) θ ∧ |θ - τ| ≤ 2 / 10 ^ 11 * τ := by
  have h0' : 2 / 10 ^ 5 ≤ τ := le_trans (by norm_num) h0
  have tp : 0 < τ := lt_of_lt_of_le (by norm_num) h0
  obtain ⟨φ, iφ, c⟩ := labF_sharp hL ix h0' h1
  have b : 0.0185 ≤ 116 * φ - 16 ∧ φ ≤ 1.0005 := by
    rcases c with ⟨t1, f1⟩ | ⟨t1, f1⟩
    · have f := abs_le.1 f1
      have c3 : (τ ^ (1 / 3 : ℝ)) ^ 3 = τ := by
        rw [← rpow_natCast, ← rpow_mul tp.le]; norm_num
      have cp : 0 < τ ^ (1 / 3 : ℝ) := rpow_pos_of_pos tp _
      generalize τ ^ (1 / 3 : ℝ) = c at *
      have c0 : 0.2 ≤ c := by
        by_contra hh
        push Not at hh
        have := pow_le_pow_left₀ cp.le hh.le 3
        rw [c3] at this
        norm_num at this t1; linarith
      have c1 : c ≤ 1.0002 := by
        by_contra hh
        push Not at hh
        have := pow_le_pow_left₀ (by norm_num) hh.le 3
        rw [c3] at this
        norm_num at this h1; linarith
      norm_num at *; constructor <;> linarith
    · have f := abs_le.1 f1
      norm_num at *; constructor <;> linarith
  obtain ⟨φ', i', hm⟩ := mid_chain iφ (by norm_num at b ⊢; linarith [b.1]) (b.2.trans (by norm_num))
  have hm' := abs_le.1 hm
  obtain ⟨θ, iθ, c'⟩ := labInvf_sharp i' (by norm_num at *; linarith [b.1]) (by norm_num at *; linarith [b.2])
  exact ⟨θ, iθ, tone_real h0' hm c c'⟩

end Mcu.Lemmas
