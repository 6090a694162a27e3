import Verif.Lemmas.F64ViewingNear
import Verif.Lemmas.F64Cam

/-! The cone responses of a colour in IEEE-754 binary64 are close to the exact ones. -/

namespace Mcu.Lemmas

open Mcu.Ieee Props Props.Binary64 MathUtils ColorUtils Real

variable {L : Libm}

local notation "𝔻" => F64 L

theorem lin_min {c : ℤ} (h0 : 1 ≤ c) (h1 : c ≤ 255) : 0.0303 ≤ (linearized c : ℝ) := by
  have h : (linearized 1 : ℝ) ≤ linearized c := c10_strictMono.monotone h0
  refine le_trans ?_ h
  rw [linearized_small (by norm_num)]
  norm_num

theorem lin_max {c : ℤ} (h0 : 0 ≤ c) (h1 : c ≤ 255) : (linearized c : ℝ) ≤ 100 := (linearized_range c h0 h1).2

theorem nr_lin (hL : L.PowOk) {c : ℤ} (h0 : 1 ≤ c) (h1 : c ≤ 255) : Nr (linearized c : 𝔻) (linearized c : ℝ) (25 / 10 ^ 14) 2 := by
  have hc0 : (1 : ℝ) ≤ c := by exact_mod_cast h0
  have hc1 : (c : ℝ) ≤ 255 := by exact_mod_cast h1
  have hmin := lin_min h0 h1
  have hmax := lin_max (show 0 ≤ c by omega) h1
  have hi : Nr (Fl.ofInt c : 𝔻) (c : ℝ) 0 3 := ⟨(is_ofInt (by rw [abs_of_nonneg (by omega)]; omega)).rl, le_rfl, by norm_num; linarith, by norm_num; linarith⟩
  have l255 : Nr (255.0 : 𝔻) (255.0 : ℝ) (1 / 10 ^ 15) 3 := nr_lit 3 (by norm_num) (by norm_num) (by norm_num)
  have l100' : Nr (100.0 : 𝔻) (100.0 : ℝ) (1 / 10 ^ 15) 2 := nr_lit 2 (by norm_num) (by norm_num) (by norm_num)
  have hn := hi.div l255 (3 / 10 ^ 15) (by norm_num) (by norm_num) (by norm_num)
  have e255 : (255.0 : ℝ) = 255 := by norm_num
  have hthr : Nr (0.040449936 : 𝔻) (0.040449936 : ℝ) (1 / 10 ^ 15) 2 := nr_lit 2 (by norm_num) (by norm_num) (by norm_num)
  obtain ⟨v, iv, hv⟩ := hn.rl
  obtain ⟨w, iw, hw⟩ := hthr.rl
  rw [abs_le] at hv hw
  norm_num at hw
  simp only [linearized] at hmin hmax ⊢
  rw [fl_ofInt] at hmin hmax ⊢
  rcases le_or_gt c 10 with h | h
  · have hr : (c : ℝ) ≤ 10 := by exact_mod_cast h
    rw [if_pos (by norm_num; linarith)] at hmin hmax
    rw [if_pos ((iv.le_iff iw).2 (by norm_num at hv; linarith)), if_pos (by norm_num; linarith)]
    have l12 : Nr (12.92 : 𝔻) (12.92 : ℝ) (1 / 10 ^ 15) 2 := nr_lit 2 (by norm_num) (by norm_num) (by norm_num)
    have r := (hn.div l12 (6 / 10 ^ 15) (by norm_num) (by norm_num) (by norm_num)).mul l100' (9 / 10 ^ 15) (by norm_num) (by norm_num) (by norm_num)
    exact r.to _ 2 (by norm_num) (by norm_num at hmin ⊢; linarith) (by norm_num at hmax ⊢; linarith)
  · have hr : (11 : ℝ) ≤ c := by exact_mod_cast (show (11 : ℤ) ≤ c by omega)
    rw [if_neg (by norm_num; linarith)] at hmin hmax
    rw [if_neg (fun hh => absurd ((iv.le_iff iw).1 hh) (by norm_num at hv ⊢; linarith)), if_neg (by norm_num; linarith)]
    have l055 : Nr (0.055 : 𝔻) (0.055 : ℝ) (1 / 10 ^ 15) 2 := nr_lit 2 (by norm_num) (by norm_num) (by norm_num)
    have l1055 : Nr (1.055 : 𝔻) (1.055 : ℝ) (1 / 10 ^ 15) 1 := nr_lit 1 (by norm_num) (by norm_num) (by norm_num)
    have b0 : 0.093 ≤ ((c : ℝ) / 255.0 + 0.055) / 1.055 := by norm_num; linarith
    have b1 : ((c : ℝ) / 255.0 + 0.055) / 1.055 ≤ 1 := by norm_num; linarith
    have a := ((hn.add l055 7 (4 / 10 ^ 15) (by norm_num) (by norm_num) (by norm_num) (by norm_num) (by norm_num) (by norm_num)).div l1055 (7 / 10 ^ 15) (by norm_num) (by norm_num) (by norm_num)).to
      (7 / 10 ^ 15) 2 le_rfl (by norm_num at b0 ⊢; linarith) (by norm_num at b1 ⊢; linarith)
    have p := a.pow hL (ap_lit_small (m := 24) (s := true) (e := 1) (by norm_num [abs_le])) (23 / 10 ^ 14) (by norm_num) (by norm_num) (by norm_num)
      (by norm_num at b0 ⊢; linarith) (by norm_num) (by norm_num) (by norm_num)
    have r := p.mul l100' (25 / 10 ^ 14) (by norm_num) (by norm_num) (by norm_num)
    exact r.to _ 2 le_rfl (le_trans (by norm_num) hmin) (le_trans hmax (by norm_num))

theorem rl_lin (hL : L.PowOk) {c : ℤ} (h0 : 0 ≤ c) (h1 : c ≤ 255) : Rl (linearized c : 𝔻) (linearized c : ℝ) (25 / 10 ^ 14) := by
  rcases h0.eq_or_lt with rfl | h
  · obtain ⟨v, iv, hv⟩ : Rl (linearized 0 : 𝔻) (linearized 0 : ℝ) 0 := by
      have e : (linearized 0 : ℝ) = 0 := linearized_0
      rw [e]
      refine ⟨0, ?_, by simp⟩
      have i0 : Is (Fl.ofInt 0 : 𝔻) 0 := by simpa using is_ofInt (L := L) (n := 0) (by norm_num)
      have i255 : Is (255.0 : 𝔻) 255 := by simpa using lit (L := L) 2550 1 true 255 (by norm_num) (by norm_num)
      have q : Is (Fl.ofInt 0 / 255.0 : 𝔻) 0 := by
        have := i0.div i255 (by norm_num) (rnd_huge (by norm_num))
        rwa [zero_div, rnd_zero] at this
      obtain ⟨w, iw, hw⟩ := (nr_lit (L := L) (m := 40449936) (s := true) (e := 9) 2 (by norm_num) (by norm_num) (by norm_num)).rl
      obtain ⟨w2, iw2, hw2⟩ := (nr_lit (L := L) (m := 1292) (s := true) (e := 2) 2 (by norm_num) (by norm_num) (by norm_num)).rl
      rw [abs_le] at hw hw2
      norm_num at hw hw2
      simp only [linearized]
      rw [if_pos ((q.le_iff iw).2 (by linarith))]
      have q2 : Is (Fl.ofInt 0 / 255.0 / 12.92 : 𝔻) 0 := by
        have := q.div iw2 (by linarith) (rnd_huge (by norm_num))
        rwa [zero_div, rnd_zero] at this
      have := q2.mul l100 (rnd_huge (by norm_num))
      rwa [zero_mul, rnd_zero] at this
    exact ⟨v, iv, hv.trans (by rw [linearized_0]; simp)⟩
  · exact (nr_lin hL h h1).rl

/-- A sum of positive terms with small relative errors. -/
theorem rl_comb {r g b ca cb cc : 𝔻} {R G B A C D : ℝ} (hr : Rl r R (25 / 10 ^ 14)) (hg : Rl g G (25 / 10 ^ 14)) (hb : Rl b B (25 / 10 ^ 14))
    (ha : Nr ca A (1 / 10 ^ 15) 3) (hc : Nr cb C (1 / 10 ^ 15) 3) (hd : Nr cc D (1 / 10 ^ 15) 3) (r0 : 0 ≤ R) (g0 : 0 ≤ G) (b0 : 0 ≤ B) (lo : 1 / 10 ^ 4 ≤ A * R + C * G + D * B)
    (hi : A * R + C * G + D * B ≤ 10 ^ 4) : Nr (r * ca + g * cb + b * cc) (A * R + C * G + D * B) (26 / 10 ^ 14) 4 := by
  obtain ⟨v1, i1, h1⟩ := hr
  obtain ⟨v2, i2, h2⟩ := hg
  obtain ⟨v3, i3, h3⟩ := hb
  obtain ⟨w1, j1, k1⟩ := ha.rl
  obtain ⟨w2, j2, k2⟩ := hc.rl
  obtain ⟨w3, j3, k3⟩ := hd.rl
  have pa := ha.pos; have pc := hc.pos; have pd := hd.pos
  have := comb3 (L := L) (m1 := r * ca) (m2 := g * cb) (m3 := b * cc) (p := r * ca + g * cb) (q := r * ca + g * cb + b * cc) 1 (by norm_num)
    (fun h => by rw [mul_comm] at h ⊢; exact i1.mul j1 h) (fun h => by rw [mul_comm] at h ⊢; exact i2.mul j2 h) (fun h => by rw [mul_comm] at h ⊢; exact i3.mul j3 h)
    h1 h2 h3 (by rw [abs_of_pos pa]; exact k1) (by rw [abs_of_pos pc]; exact k2) (by rw [abs_of_pos pd]; exact k3) r0 g0 b0 (by norm_num) (by norm_num)
    (by rw [abs_of_pos pa, abs_of_pos pc, abs_of_pos pd]; exact le_trans (by norm_num) lo) (by rw [abs_of_pos pa, abs_of_pos pc, abs_of_pos pd]; exact le_trans hi (by norm_num))
    (fun u v hu hv h => hu.add hv h) (fun w s hw hs h => by rw [one_mul] at h ⊢; exact hs.add hw h)
  rw [one_mul, abs_of_pos pa, abs_of_pos pc, abs_of_pos pd] at this
  refine this.nr _ 4 lo hi ?_
  have p : 0 < A * R + C * G + D * B := lt_of_lt_of_le (by norm_num) lo
  exact mul_le_mul_of_nonneg_right (by norm_num) p.le

/-- A colour with a channel that is not 0. -/
def NotBlack (argb : Int) : Prop := ¬ (redFromArgb argb = 0 ∧ greenFromArgb argb = 0 ∧ blueFromArgb argb = 0)

theorem lin_sum {argb : Int} (h : NotBlack argb) {a b c : ℝ} (a0 : 0.0277 ≤ a) (b0 : 0.0277 ≤ b) (c0 : 0.0277 ≤ c) :
    0.00083 ≤ a * (linearized (redFromArgb argb) : ℝ) + b * linearized (greenFromArgb argb) + c * linearized (blueFromArgb argb) := by
  obtain ⟨hr, hg, hb⟩ := channel_range argb
  have hr' := (linearized_range _ hr.1 hr.2).1
  have hg' := (linearized_range _ hg.1 hg.2).1
  have hb' := (linearized_range _ hb.1 hb.2).1
  norm_num at a0 b0 c0
  have m {x y : ℝ} (hx : 0.0277 ≤ x) (hy : 0.0303 ≤ y) : 0.00083 ≤ x * y := by
    have := mul_le_mul hx hy (by norm_num) (by norm_num at hx; linarith)
    norm_num at this ⊢; linarith
  have p1 := mul_nonneg (show 0 ≤ a by linarith) hr'
  have p2 := mul_nonneg (show 0 ≤ b by linarith) hg'
  have p3 := mul_nonneg (show 0 ≤ c by linarith) hb'
  by_cases h1 : redFromArgb argb = 0
  · by_cases h2 : greenFromArgb argb = 0
    · have h3 : blueFromArgb argb ≠ 0 := fun h3 => h ⟨h1, h2, h3⟩
      have := m (x := c) (by norm_num; linarith) (lin_min (c := blueFromArgb argb) (by omega) hb.2)
      linarith
    · have := m (x := b) (by norm_num; linarith) (lin_min (c := greenFromArgb argb) (by omega) hg.2)
      linarith
  · have := m (x := a) (by norm_num; linarith) (lin_min (c := redFromArgb argb) (by omega) hr.2)
    linarith

theorem lin_sum' {argb : Int} (h : NotBlack argb) : 0.0303 ≤ (linearized (redFromArgb argb) : ℝ) + linearized (greenFromArgb argb) + linearized (blueFromArgb argb) := by
  obtain ⟨hr, hg, hb⟩ := channel_range argb
  have hr' := (linearized_range _ hr.1 hr.2).1
  have hg' := (linearized_range _ hg.1 hg.2).1
  have hb' := (linearized_range _ hb.1 hb.2).1
  by_cases h1 : redFromArgb argb = 0
  · by_cases h2 : greenFromArgb argb = 0
    · have h3 : blueFromArgb argb ≠ 0 := fun h3 => h ⟨h1, h2, h3⟩
      have := lin_min (c := blueFromArgb argb) (by omega) hb.2
      linarith
    · have := lin_min (c := greenFromArgb argb) (by omega) hg.2
      linarith
  · have := lin_min (c := redFromArgb argb) (by omega) hr.2
    linarith

theorem nr_xyz (hL : L.PowOk) {argb : Int} (h : NotBlack argb) :
    Nr (xyzFromArgb argb : Vec3 𝔻).x0 (xyzFromArgb argb : Vec3 ℝ).x0 (26 / 10 ^ 14) 4 ∧
    Nr (xyzFromArgb argb : Vec3 𝔻).x1 (xyzFromArgb argb : Vec3 ℝ).x1 (26 / 10 ^ 14) 4 ∧
    Nr (xyzFromArgb argb : Vec3 𝔻).x2 (xyzFromArgb argb : Vec3 ℝ).x2 (26 / 10 ^ 14) 4 := by
  obtain ⟨hr, hg, hb⟩ := channel_range argb
  have hr' := linearized_range _ hr.1 hr.2
  have hg' := linearized_range _ hg.1 hg.2
  have hb' := linearized_range _ hb.1 hb.2
  have s := lin_sum' h
  have lr := rl_lin hL hr.1 hr.2
  have lg := rl_lin hL hg.1 hg.2
  have lb := rl_lin hL hb.1 hb.2
  simp only [xyzFromArgb, matrixMultiply, srgbToXyz]
  generalize (linearized (redFromArgb argb) : ℝ) = R at *
  generalize (linearized (greenFromArgb argb) : ℝ) = G at *
  generalize (linearized (blueFromArgb argb) : ℝ) = B at *
  norm_num at s
  refine ⟨?_, ?_, ?_⟩
  all_goals
    rw [mul_comm R, mul_comm G, mul_comm B]
    refine rl_comb lr lg lb (nr_lit 3 (by norm_num) (by norm_num) (by norm_num)) (nr_lit 3 (by norm_num) (by norm_num) (by norm_num)) (nr_lit 3 (by norm_num) (by norm_num) (by norm_num))
      hr'.1 hg'.1 hb'.1 ?_ ?_ <;> norm_num <;> linarith

/-- The three cone responses before the adaptation. -/
noncomputable def raw64 (x y z : 𝔻) : Vec3 𝔻 :=
  ⟨0.401288 * x + 0.650173 * y - 0.051461 * z, (-0.250268) * x + 1.204414 * y + 0.045854 * z, (-0.002079) * x + 0.048952 * y + 0.953127 * z⟩

/-- The exact cone responses of a colour before the adaptation. -/
noncomputable def rawR (argb : Int) : Vec3 ℝ := rawCones (xyzFromArgb argb : Vec3 ℝ).x0 (xyzFromArgb argb : Vec3 ℝ).x1 (xyzFromArgb argb : Vec3 ℝ).x2

theorem raw_bounds {argb : Int} (h : NotBlack argb) : (0.0021 ≤ (rawR argb).x0 ∧ (rawR argb).x0 ≤ 98) ∧ (0.0025 ≤ (rawR argb).x1 ∧ (rawR argb).x1 ≤ 102) ∧
    (0.00084 ≤ (rawR argb).x2 ∧ (rawR argb).x2 ≤ 109) := by
  obtain ⟨hr, hg, hb⟩ := channel_range argb
  have hr' := linearized_range _ hr.1 hr.2
  have hg' := linearized_range _ hg.1 hg.2
  have hb' := linearized_range _ hb.1 hb.2
  have s := lin_sum' h
  have e := rawCones_argb argb
  simp only at e
  unfold rawR
  rw [e]
  dsimp only
  generalize (linearized (redFromArgb argb) : ℝ) = R at *
  generalize (linearized (greenFromArgb argb) : ℝ) = G at *
  generalize (linearized (blueFromArgb argb) : ℝ) = B at *
  norm_num at s ⊢
  refine ⟨⟨?_, ?_⟩, ⟨?_, ?_⟩, ?_, ?_⟩ <;> linarith

set_option maxHeartbeats 1600000 in
theorem nr_raw (hL : L.PowOk) {argb : Int} (h : NotBlack argb) : let v : Vec3 𝔻 := xyzFromArgb argb
    Nr (raw64 v.x0 v.x1 v.x2).x0 (rawR argb).x0 (65 / 10 ^ 14) 4 ∧ Nr (raw64 v.x0 v.x1 v.x2).x1 (rawR argb).x1 (65 / 10 ^ 14) 4 ∧
    Nr (raw64 v.x0 v.x1 v.x2).x2 (rawR argb).x2 (65 / 10 ^ 14) 4 := by
  intro v
  obtain ⟨b0, b1, b2⟩ := raw_bounds h
  obtain ⟨hx, hy, hz⟩ := nr_xyz hL h
  have x0 := hx.pos.le; have y0 := hy.pos.le; have z0 := hz.pos.le
  have xl := hx.lo; have yl := hy.lo; have zl := hz.lo
  have xu := hx.hi; have yu := hy.hi; have zu := hz.hi
  -- the sizes of the terms against the sums
  have ratio : 0.401288 * (xyzFromArgb argb : Vec3 ℝ).x0 + 0.650173 * (xyzFromArgb argb : Vec3 ℝ).x1 + 0.051461 * (xyzFromArgb argb : Vec3 ℝ).x2 ≤ 2.4 * (rawR argb).x0 ∧
      0.250268 * (xyzFromArgb argb : Vec3 ℝ).x0 + 1.204414 * (xyzFromArgb argb : Vec3 ℝ).x1 + 0.045854 * (xyzFromArgb argb : Vec3 ℝ).x2 ≤ 2.4 * (rawR argb).x1 ∧
      0.002079 * (xyzFromArgb argb : Vec3 ℝ).x0 + 0.048952 * (xyzFromArgb argb : Vec3 ℝ).x1 + 0.953127 * (xyzFromArgb argb : Vec3 ℝ).x2 ≤ 2.4 * (rawR argb).x2 := by
    obtain ⟨hr, hg, hb⟩ := channel_range argb
    have hr' := (linearized_range _ hr.1 hr.2).1
    have hg' := (linearized_range _ hg.1 hg.2).1
    have hb' := (linearized_range _ hb.1 hb.2).1
    simp only [rawR, rawCones, xyzFromArgb, matrixMultiply, srgbToXyz]
    generalize (linearized (redFromArgb argb) : ℝ) = R at *
    generalize (linearized (greenFromArgb argb) : ℝ) = G at *
    generalize (linearized (blueFromArgb argb) : ℝ) = B at *
    norm_num
    refine ⟨?_, ?_, ?_⟩ <;> linarith
  obtain ⟨v1, i1, h1⟩ := hx.rl
  obtain ⟨v2, i2, h2⟩ := hy.rl
  obtain ⟨v3, i3, h3⟩ := hz.rl
  simp only [raw64, rawR, rawCones] at ratio b0 b1 b2 ⊢
  change Is v.x0 v1 at i1
  change Is v.x1 v2 at i2
  change Is v.x2 v3 at i3
  generalize (xyzFromArgb argb : Vec3 ℝ).x0 = X at *
  generalize (xyzFromArgb argb : Vec3 ℝ).x1 = Y at *
  generalize (xyzFromArgb argb : Vec3 ℝ).x2 = Z at *
  have posl {m e : ℕ} {s : Bool} (h0 : 1 / 10 ^ 3 ≤ (OfScientific.ofScientific m s e : ℝ)) (h1 : (OfScientific.ofScientific m s e : ℝ) ≤ 10 ^ 3) :
      ∃ w, Is (OfScientific.ofScientific m s e : 𝔻) w ∧ |w - (OfScientific.ofScientific m s e : ℝ)| ≤ 1 / 10 ^ 15 * |(OfScientific.ofScientific m s e : ℝ)| := by
    have n := nr_lit (L := L) (m := m) (s := s) (e := e) 3 h0 h1 (by norm_num)
    obtain ⟨w, iw, hw⟩ := n.rl
    exact ⟨w, iw, by rw [abs_of_pos n.pos]; exact hw⟩
  have negl {x : 𝔻} {t : ℝ} (h : ∃ w, Is x w ∧ |w - t| ≤ 1 / 10 ^ 15 * |t|) : ∃ w, Is (-x) w ∧ |w - (-t)| ≤ 1 / 10 ^ 15 * |(-t)| := by
    obtain ⟨w, iw, hw⟩ := h
    exact ⟨-w, iw.neg, by rw [show -w - -t = -(w - t) by ring, abs_neg, abs_neg]; exact hw⟩
  have fin {q : 𝔻} {T r : ℝ} (h : Ap q r ((26 / 10 ^ 14 + 5 / 10 ^ 15) * T)) (hT : T ≤ 2.4 * r) (r0 : 0.00084 ≤ r) (r1 : r ≤ 109) : Nr q r (65 / 10 ^ 14) 4 := by
    refine h.nr _ 4 (le_trans (by norm_num) r0) (r1.trans (by norm_num)) ?_
    norm_num at hT r0 ⊢; linarith
  refine ⟨?_, ?_, ?_⟩
  · obtain ⟨w1, j1, k1⟩ := posl (m := 401288) (s := true) (e := 6) (by norm_num) (by norm_num)
    obtain ⟨w2, j2, k2⟩ := posl (m := 650173) (s := true) (e := 6) (by norm_num) (by norm_num)
    obtain ⟨w3, j3, k3⟩ := posl (m := 51461) (s := true) (e := 6) (by norm_num) (by norm_num)
    have c := comb3 (L := L) (m1 := 0.401288 * v.x0) (m2 := 0.650173 * v.x1) (m3 := 0.051461 * v.x2) (p := 0.401288 * v.x0 + 0.650173 * v.x1)
      (q := 0.401288 * v.x0 + 0.650173 * v.x1 - 0.051461 * v.x2) (-1) (by norm_num) (fun h => j1.mul i1 h) (fun h => j2.mul i2 h) (fun h => j3.mul i3 h) h1 h2 h3 k1 k2 k3
      x0 y0 z0 (by norm_num) (by norm_num) (by norm_num at *; linarith) (by norm_num at *; linarith) (fun a b ha hb h => ha.add hb h)
      (fun w s hw hs h => by rw [neg_one_mul, ← sub_eq_add_neg] at h ⊢; exact hs.sub hw h)
    rw [neg_one_mul, ← sub_eq_add_neg] at c
    exact fin c (by norm_num at *; linarith) (le_trans (by norm_num) b0.1) (b0.2.trans (by norm_num))
  · obtain ⟨w1, j1, k1⟩ := negl (posl (m := 250268) (s := true) (e := 6) (by norm_num) (by norm_num))
    obtain ⟨w2, j2, k2⟩ := posl (m := 1204414) (s := true) (e := 6) (by norm_num) (by norm_num)
    obtain ⟨w3, j3, k3⟩ := posl (m := 45854) (s := true) (e := 6) (by norm_num) (by norm_num)
    have c := comb3 (L := L) (m1 := (-0.250268) * v.x0) (m2 := 1.204414 * v.x1) (m3 := 0.045854 * v.x2) (p := (-0.250268) * v.x0 + 1.204414 * v.x1)
      (q := (-0.250268) * v.x0 + 1.204414 * v.x1 + 0.045854 * v.x2) 1 (by norm_num) (fun h => j1.mul i1 h) (fun h => j2.mul i2 h) (fun h => j3.mul i3 h) h1 h2 h3 k1 k2 k3
      x0 y0 z0 (by norm_num) (by norm_num) (by norm_num at *; linarith) (by norm_num at *; linarith) (fun a b ha hb h => ha.add hb h)
      (fun w s hw hs h => by rw [one_mul] at h ⊢; exact hs.add hw h)
    rw [one_mul] at c
    exact fin c (by norm_num at *; linarith) (le_trans (by norm_num) b1.1) (b1.2.trans (by norm_num))
  · obtain ⟨w1, j1, k1⟩ := negl (posl (m := 2079) (s := true) (e := 6) (by norm_num) (by norm_num))
    obtain ⟨w2, j2, k2⟩ := posl (m := 48952) (s := true) (e := 6) (by norm_num) (by norm_num)
    obtain ⟨w3, j3, k3⟩ := posl (m := 953127) (s := true) (e := 6) (by norm_num) (by norm_num)
    have c := comb3 (L := L) (m1 := (-0.002079) * v.x0) (m2 := 0.048952 * v.x1) (m3 := 0.953127 * v.x2) (p := (-0.002079) * v.x0 + 0.048952 * v.x1)
      (q := (-0.002079) * v.x0 + 0.048952 * v.x1 + 0.953127 * v.x2) 1 (by norm_num) (fun h => j1.mul i1 h) (fun h => j2.mul i2 h) (fun h => j3.mul i3 h) h1 h2 h3 k1 k2 k3
      x0 y0 z0 (by norm_num) (by norm_num) (by norm_num at *; linarith) (by norm_num at *; linarith) (fun a b ha hb h => ha.add hb h)
      (fun w s hw hs h => by rw [one_mul] at h ⊢; exact hs.add hw h)
    rw [one_mul] at c
    exact fin c (by norm_num at *; linarith) b2.1 b2.2

theorem cone_range {t : ℝ} (h0 : 3 / 10 ^ 6 ≤ t) (h1 : t ≤ 1) :
    0.02 ≤ 400 * t ^ (0.42 : ℝ) / (t ^ (0.42 : ℝ) + 27.13) ∧ 400 * t ^ (0.42 : ℝ) / (t ^ (0.42 : ℝ) + 27.13) ≤ 15 := by
  have tp : 0 < t := lt_of_lt_of_le (by norm_num) h0
  have q1 : t ^ (0.42 : ℝ) ≤ 1 := rpow_le_one tp.le h1 (by norm_num)
  have q0 : 0.0017 ≤ t ^ (0.42 : ℝ) := by
    calc (0.0017 : ℝ) ≤ t ^ ((1 : ℕ) / (2 : ℕ) : ℝ) := le_rpow_of_pow_le (by norm_num) (by norm_num) tp.le (by norm_num at h0 ⊢; linarith)
      _ ≤ _ := rpow_le_rpow_of_exponent_ge tp h1 (by norm_num)
  generalize t ^ (0.42 : ℝ) = x at *
  norm_num at q0
  constructor
  · rw [le_div_iff₀ (by norm_num; linarith)]; norm_num; linarith
  · rw [div_le_iff₀ (by norm_num; linarith)]; norm_num; linarith

theorem nr_cone64 (hL : L.PowOk) {d c : 𝔻} {D C : ℝ} (hd : Nr d D (1 / 10 ^ 12) 1) (hc : Nr c C (65 / 10 ^ 14) 4) (h0 : 3 / 10 ^ 6 ≤ vcR.fl * (D * C) / 100) (h1 : vcR.fl * (D * C) / 100 ≤ 1) :
    Nr (coneOf64 d c) (cone vcR.fl (D * C)) (5 / 10 ^ 12) 2 := by
  have a := hd.mul hc (166 / 10 ^ 14) (by norm_num) (by norm_num) (by norm_num)
  unfold coneOf64 cone
  obtain ⟨b0, b1⟩ := cone_range h0 h1
  have e100 : (100.0 : ℝ) = 100 := by norm_num
  have e400 : (400.0 : ℝ) = 400 := by norm_num
  have hs : signum (d * c) = 1 := by
    obtain ⟨v, iv, hv⟩ := a.rl
    have ap := a.pos
    have hv := abs_le.1 hv
    have vp : 0 < v := by norm_num at hv; linarith
    simp only [signum]
    rw [if_neg (by rw [iv.lt_iff l0']; exact not_lt.2 vp.le), if_neg (by rw [iv.beq_iff l0']; exact vp.ne')]
  have habs : Nr (Fl.abs (d * c)) (D * C) (166 / 10 ^ 14) (1 + 4) := by
    obtain ⟨v, iv, hv⟩ := a.rl
    refine ⟨⟨|v|, iv.abs, ?_⟩, a.e0, a.lo, a.hi⟩
    have ap := a.pos
    have hv' := abs_le.1 hv
    have vp : 0 < v := by norm_num at hv'; linarith
    rw [abs_of_pos vp]; exact hv
  rw [hs]
  have l100' : Nr (100.0 : 𝔻) (100.0 : ℝ) (1 / 10 ^ 15) 2 := nr_lit 2 (by norm_num) (by norm_num) (by norm_num)
  have l400 : Nr (400.0 : 𝔻) (400.0 : ℝ) (1 / 10 ^ 15) 3 := nr_lit 3 (by norm_num) (by norm_num) (by norm_num)
  have l27 : Nr (27.13 : 𝔻) (27.13 : ℝ) (1 / 10 ^ 15) 2 := nr_lit 2 (by norm_num) (by norm_num) (by norm_num)
  have i1 : Nr (Fl.ofInt 1 : 𝔻) 1 0 0 := ⟨(by simpa using (is_ofInt (L := L) (n := 1) (by norm_num)).rl), le_rfl, by norm_num, by norm_num⟩
  have f := (((nr_fl hL).mul habs (267 / 10 ^ 14) (by norm_num) (by norm_num) (by norm_num)).div l100' (295 / 10 ^ 14) (by norm_num) (by norm_num) (by norm_num))
  rw [e100] at f
  have f := f.to (295 / 10 ^ 14) 6 le_rfl (le_trans (by norm_num) h0) (h1.trans (by norm_num))
  have p := f.pow hL (ap_lit_small (m := 42) (s := true) (e := 2) (by norm_num [abs_le])) (19 / 10 ^ 13) (by norm_num) (by norm_num) (by norm_num) (le_trans (by norm_num) h0) (by norm_num) (by norm_num) (by norm_num)
  have tp : 0 < vcR.fl * (D * C) / 100 := lt_of_lt_of_le (by norm_num) h0
  have x1 : (vcR.fl * (D * C) / 100) ^ (0.42 : ℝ) ≤ 10 ^ 6 := (rpow_le_one tp.le h1 (by norm_num)).trans (by norm_num)
  have x0 : 1 / 10 ^ 6 ≤ (vcR.fl * (D * C) / 100) ^ (0.42 : ℝ) := by
    calc (1 : ℝ) / 10 ^ 6 ≤ vcR.fl * (D * C) / 100 := le_trans (by norm_num) h0
      _ = (vcR.fl * (D * C) / 100) ^ (1 : ℝ) := (rpow_one _).symm
      _ ≤ _ := rpow_le_rpow_of_exponent_ge tp h1 (by norm_num)
  have p := p.to (19 / 10 ^ 13) 6 le_rfl x0 x1
  change Nr (Fl.powf ((vc64 L).fl * Fl.abs (d * c) / 100.0) 0.42 : 𝔻) ((vcR.fl * (D * C) / 100) ^ (0.42 : ℝ)) (19 / 10 ^ 13) 6 at p
  generalize (Fl.powf ((vc64 L).fl * Fl.abs (d * c) / 100.0) 0.42 : 𝔻) = y at p
  generalize (vcR.fl * (D * C) / 100) ^ (0.42 : ℝ) = x at p b0 b1
  have n := (i1.mul l400 (3 / 10 ^ 15) (by norm_num) (by norm_num) (by norm_num)).mul p (191 / 10 ^ 14) (by norm_num) (by norm_num) (by norm_num)
  have q := p.add l27 7 (191 / 10 ^ 14) (by norm_num) (by norm_num) (by norm_num) (by norm_num) (by norm_num) (by norm_num)
  have r := n.div q (5 / 10 ^ 12) (by norm_num) (by norm_num) (by norm_num)
  rw [one_mul, e400] at r
  exact r.to _ 2 le_rfl (le_trans (by norm_num) b0) (b1.trans (by norm_num))

/-- The exact adapted cone responses. -/
noncomputable def conesR (argb : Int) : Vec3 ℝ :=
  Cam16.adaptedCones (xyzFromArgb argb : Vec3 ℝ).x0 (xyzFromArgb argb : Vec3 ℝ).x1 (xyzFromArgb argb : Vec3 ℝ).x2 vcR

/-- The computed adapted cone responses. -/
noncomputable def cones64 (L : Libm) (argb : Int) : Vec3 (F64 L) :=
  Cam16.adaptedCones (xyzFromArgb argb : Vec3 (F64 L)).x0 (xyzFromArgb argb : Vec3 (F64 L)).x1 (xyzFromArgb argb : Vec3 (F64 L)).x2 (vc64 L)

theorem conesR_eq (argb : Int) : conesR argb = ⟨cone vcR.fl (vcR.rgbD.x0 * (rawR argb).x0), cone vcR.fl (vcR.rgbD.x1 * (rawR argb).x1),
    cone vcR.fl (vcR.rgbD.x2 * (rawR argb).x2)⟩ := adaptedCones_eq sRgb_pos (cones_of_argb argb)

theorem arg_range {f d c f0 f1 d0 d1 c0 c1 : ℝ} (hf : f0 < f ∧ f < f1) (hd : d0 < d ∧ d < d1) (hc : c0 ≤ c ∧ c ≤ c1) (hf0 : 0 < f0) (hd0 : 0 < d0) (hc0 : 0 < c0)
    (h0 : 3 / 10 ^ 6 ≤ f0 * (d0 * c0) / 100) (h1 : f1 * (d1 * c1) / 100 ≤ 1) : 3 / 10 ^ 6 ≤ f * (d * c) / 100 ∧ f * (d * c) / 100 ≤ 1 := by
  have fp : 0 < f := hf0.trans hf.1
  have dp : 0 < d := hd0.trans hd.1
  have cp : 0 < c := hc0.trans_le hc.1
  constructor
  · refine h0.trans ?_
    have := hf.1.le; have := hd.1.le; have := hc.1
    gcongr
  · refine le_trans ?_ h1
    have := hf.2.le; have := hd.2.le; have := hc.2
    have : 0 < f1 := fp.trans hf.2
    have : 0 < d1 := dp.trans hd.2
    gcongr

theorem stim_range {argb : Int} (h : NotBlack argb) :
    (3 / 10 ^ 6 ≤ vcR.fl * (vcR.rgbD.x0 * (rawR argb).x0) / 100 ∧ vcR.fl * (vcR.rgbD.x0 * (rawR argb).x0) / 100 ≤ 1) ∧
    (3 / 10 ^ 6 ≤ vcR.fl * (vcR.rgbD.x1 * (rawR argb).x1) / 100 ∧ vcR.fl * (vcR.rgbD.x1 * (rawR argb).x1) / 100 ≤ 1) ∧
    (3 / 10 ^ 6 ≤ vcR.fl * (vcR.rgbD.x2 * (rawR argb).x2) / 100 ∧ vcR.fl * (vcR.rgbD.x2 * (rawR argb).x2) / 100 ≤ 1) := by
  obtain ⟨b0, b1, b2⟩ := raw_bounds h
  obtain ⟨d0, d1, d2⟩ := rgbD_bounds
  have fb := fl_bounds
  exact ⟨arg_range fb d0 b0 (by norm_num) (by norm_num) (by norm_num) (by norm_num) (by norm_num), arg_range fb d1 b1 (by norm_num) (by norm_num) (by norm_num) (by norm_num) (by norm_num),
    arg_range fb d2 b2 (by norm_num) (by norm_num) (by norm_num) (by norm_num) (by norm_num)⟩

theorem nr_cones64 (hL : L.PowOk) (hE : L.ExpOk) {argb : Int} (h : NotBlack argb) :
    Nr (cones64 L argb).x0 (conesR argb).x0 (5 / 10 ^ 12) 2 ∧ Nr (cones64 L argb).x1 (conesR argb).x1 (5 / 10 ^ 12) 2 ∧ Nr (cones64 L argb).x2 (conesR argb).x2 (5 / 10 ^ 12) 2 := by
  obtain ⟨a0, a1, a2⟩ := nr_raw hL h
  obtain ⟨d0, d1, d2⟩ := nr_rgbD hE
  obtain ⟨s0, s1, s2⟩ := stim_range h
  rw [conesR_eq]
  exact ⟨nr_cone64 hL d0 a0 s0.1 s0.2, nr_cone64 hL d1 a1 s1.1 s1.2, nr_cone64 hL d2 a2 s2.1 s2.2⟩

end Mcu.Lemmas
