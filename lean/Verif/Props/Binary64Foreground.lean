import Verif.Props.Binary64Contrast
import Verif.Model.DynamicColor

/-! The choice of a readable foreground tone in IEEE-754 binary64. -/

namespace Mcu.Props.Binary64

open Mcu.Ieee Mcu.Lemmas MathUtils Contrast ColorUtils DynamicColor

variable {L : Libm}

local notation "𝔻" => F64 L

/-- If one of the candidates reaches the ratio, so does the answer, whatever the rounding. -/
theorem foreground_best {bg r : 𝔻} {a b R : ℝ} (ia : Is (ratioOfTones (lighterUnsafe bg r) bg) a)
    (ib : Is (ratioOfTones (darkerUnsafe bg r) bg) b) (ir : Is r R) (h : R ≤ a ∨ R ≤ b) :
    R ≤ val (ratioOfTones (foregroundTone bg r) bg) := by
  have va : val (ratioOfTones (lighterUnsafe bg r) bg) = a := ia.2
  have vb : val (ratioOfTones (darkerUnsafe bg r) bg) = b := ib.2
  simp only [foregroundTone, ge_iff_le, ir.le_iff ia, ir.le_iff ib, ib.le_iff ia, ia.le_iff ib, ia.lt_iff ir, ib.lt_iff ir]
  split
  · split
    · next hc =>
      rw [va]
      rcases hc with hc | hc | hc
      · exact hc
      · rcases h with h | h
        · exact h
        · exact le_trans h hc
      · rcases h with h | h
        · exact h
        · exact absurd hc.2.2 (not_lt.2 h)
    · next hc =>
      rw [vb]
      rcases h with h | h
      · exact absurd (Or.inl h) hc
      · exact h
  · split
    · next hc =>
      rw [vb]
      rcases hc with hc | hc
      · exact hc
      · rcases h with h | h
        · exact le_trans h hc
        · exact h
    · next hc =>
      rw [va]
      rcases h with h | h
      · exact h
      · exact absurd (Or.inl h) hc

theorem foreground_cases (bg r : 𝔻) :
    foregroundTone bg r = lighterUnsafe bg r ∨ foregroundTone bg r = darkerUnsafe bg r := by
  simp only [foregroundTone]
  split
  · split
    · left; rfl
    · right; rfl
  · split
    · right; rfl
    · left; rfl

/-- C21 (binary64): the foreground tone is a number in [0, 100]. -/
theorem c21_binary64_range (hL : L.PowOk) (bg r : 𝔻) (hb : Fin bg) (hr : Fin r) (h0 : 0 ≤ val bg) (h1 : val bg ≤ 100)
    (hr1 : 1 ≤ val r) (hr2 : val r ≤ 100) :
    Fin (foregroundTone bg r) ∧ 0 ≤ val (foregroundTone bg r) ∧ val (foregroundTone bg r) ≤ 100 := by
  obtain ⟨⟨h, -⟩, ⟨h', -⟩⟩ := c20_binary64 hL bg r hb hr h0 h1 hr1 hr2
  rcases foreground_cases bg r with e | e <;> rw [e]
  · exact h
  · exact h'

/-- C21 (binary64): whenever the search for a lighter or a darker tone succeeds, the contrast the library computes for the
foreground tone and the background is at least the requested ratio. -/
theorem c21_binary64_meets_ratio (hL : L.PowOk) (bg r : 𝔻) (hb : Fin bg) (hr : Fin r) (h0 : 0 ≤ val bg) (h1 : val bg ≤ 100)
    (hr1 : 1 ≤ val r) (hr2 : val r ≤ 100) (h : val (lighter bg r) ≠ -1 ∨ val (darker bg r) ≠ -1) :
    val r ≤ val (ratioOfTones (foregroundTone bg r) bg) := by
  obtain ⟨⟨⟨a1, a2, a3⟩, -⟩, ⟨⟨b1, b2, b3⟩, -⟩⟩ := c20_binary64 hL bg r hb hr h0 h1 hr1 hr2
  have ia := is_ratioOfTones (is_of _ a1) (is_of _ hb) ⟨a2, a3⟩ ⟨h0, h1⟩
  have ib := is_ratioOfTones (is_of _ b1) (is_of _ hb) ⟨b2, b3⟩ ⟨h0, h1⟩
  refine foreground_best ia ib (is_of r hr) ?_
  rw [← show val (ratioOfTones (lighterUnsafe bg r) bg) = _ from ia.2,
    ← show val (ratioOfTones (darkerUnsafe bg r) bg) = _ from ib.2]
  rcases h with h | h
  · left
    obtain ⟨a, b, -, -, e⟩ := c18_binary64_sound hL bg r hb hr h0 h1 hr1 hr2 h
    simp only [lighterUnsafe]
    rw [if_neg (by rw [(is_of _ a).lt_iff l0]; linarith)]
    exact e
  · right
    obtain ⟨a, b, -, -, e⟩ := c19_binary64_sound hL bg r hb hr h0 h1 hr1 h
    simp only [darkerUnsafe]
    rw [if_neg (by rw [(is_of _ a).lt_iff l0]; linarith)]
    exact e

/-- White or black always reaches 4.58, also when the ratio is computed with rounding. -/
theorem white_or_black64 {R v : ℝ} (hR : R ≤ 4.58) (hrep : Rep R) (h0 : 0 ≤ v) (h1 : v ≤ 100) :
    R ≤ ratioR 100 v ∨ R ≤ ratioR 0 v := by
  norm_num at hR
  have c := abs_le.1 (rnd_close (v := v + 5) (by rw [abs_le]; constructor <;> linarith))
  norm_num at c
  obtain ⟨p0, p1⟩ := plus5 h0 h1
  unfold ratioR
  rw [max_eq_left h1, min_eq_right h1, max_eq_right h0, min_eq_left h0, zero_add, rep5.rnd_eq,
    show (100 : ℝ) + 5 = 105 by norm_num, rep105.rnd_eq]
  rcases le_total (v + 5) 22.91 with h | h <;> norm_num at h
  · left
    refine hrep.le_rnd ?_
    rw [le_div_iff₀ (by linarith)]
    nlinarith
  · right
    refine hrep.le_rnd ?_
    rw [le_div_iff₀ (by norm_num)]
    linarith

/-- C21 (binary64): every ratio up to 4.58 — 4.5 is what the accessibility guidelines ask for — is reached on every
background, as the library computes contrast, in spite of rounding. -/
theorem c21_binary64_always (hL : L.PowOk) (bg r : 𝔻) (hb : Fin bg) (hr : Fin r) (h0 : 0 ≤ val bg) (h1 : val bg ≤ 100)
    (hr1 : 1 ≤ val r) (hr2 : val r ≤ 4.58) : val r ≤ val (ratioOfTones (foregroundTone bg r) bg) := by
  have hr3 : val r ≤ 100 := hr2.trans (by norm_num)
  by_cases hl : val (lighter bg r) = -1
  · by_cases hd : val (darker bg r) = -1
    · have el : lighterUnsafe bg r = 100.0 := by
        simp only [lighterUnsafe]
        rw [if_pos ((fin_of_neg hl).lt_iff l0 |>.2 (by norm_num))]
      have ed : darkerUnsafe bg r = 0.0 := by
        simp only [darkerUnsafe]
        rw [if_pos ((fin_of_neg hd).lt_iff l0 |>.2 (by norm_num))]
      have ia := is_ratioOfTones (l100 (L := L)) (is_of _ hb) (by norm_num) ⟨h0, h1⟩
      have ib := is_ratioOfTones (l0 (L := L)) (is_of _ hb) (by norm_num) ⟨h0, h1⟩
      rw [← el] at ia
      rw [← ed] at ib
      refine foreground_best ia ib (is_of r hr) ?_
      rw [yR_hundred, yR_zero]
      obtain ⟨y0, y1⟩ := yR_range h0 h1
      exact white_or_black64 hr2 (is_of r hr).rep y0 y1
    · exact c21_binary64_meets_ratio hL bg r hb hr h0 h1 hr1 hr3 (Or.inr hd)
  · exact c21_binary64_meets_ratio hL bg r hb hr h0 h1 hr1 hr3 (Or.inl hl)

/-- The hypotheses are met by the background 50 and the ratio 4.5. -/
example (hL : L.PowOk) : val (4.5 : 𝔻) = 4.5 ∧ 4.5 ≤ val (ratioOfTones (foregroundTone (50.0 : 𝔻) 4.5) 50.0) := by
  have i50 : Is (50.0 : 𝔻) 50 := by simpa using lit (L := L) 500 1 true 50 (by norm_num) (by norm_num)
  have i45 : Is (4.5 : 𝔻) 4.5 := by
    have h : Rep (4.5 : ℝ) := ⟨9, -1, by norm_num, by norm_num, by norm_num⟩
    have := is_lit (L := L) (m := 45) (e := 1) (s := true) (v := 4.5) rfl (by
      rw [abs_of_pos (by norm_num)]
      exact le_trans (by norm_num : (4.5 : ℝ) ≤ 2 ^ 10) (pow_le_pow_right₀ (by norm_num) (by norm_num)))
    rwa [h.rnd_eq] at this
  have v50 : val (50.0 : 𝔻) = 50 := i50.2
  have v45 : val (4.5 : 𝔻) = 4.5 := i45.2
  refine ⟨v45, ?_⟩
  have := c21_binary64_always hL (50.0 : 𝔻) 4.5 i50.1 i45.1 (by rw [v50]; norm_num) (by rw [v50]; norm_num)
    (by rw [v45]; norm_num) (by rw [v45]; norm_num)
  rwa [v45] at this

end Mcu.Props.Binary64
