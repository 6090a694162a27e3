import Verif.Lemmas.F64Color

/-! The L* curve and the XYZ and L*a*b* conversions in doubles. -/

namespace Mcu.Lemmas

open Mcu.Ieee Mcu ColorUtils MathUtils Real Props

variable {L : Libm}

theorem cbrt_e : ((216 / 24389 : ℝ)) ^ (1 / 3 : ℝ) = 6 / 29 := by
  rw [show (216 / 24389 : ℝ) = (6 / 29) ^ 3 by norm_num, show (1 / 3 : ℝ) = ((3 : ℕ) : ℝ)⁻¹ by norm_num,
    pow_rpow_inv_natCast (by norm_num) (by norm_num)]

/-- Cube roots of numbers above 0.008. -/
theorem cbrt_near {v a : ℝ} (hv : 0.008 ≤ v) (ha : 0.008 ≤ a) (hv1 : v ≤ 1.01) (ha1 : a ≤ 1.01) :
    |v ^ (1 / 3 : ℝ) - a ^ (1 / 3 : ℝ)| ≤ 84 * |v - a| := by
  have := rpow_near (m := 0.008) (W := 1 / 3) (w := 1 / 3) (b := 1 / 3) (by norm_num) hv ha hv1 ha1 (by norm_num) le_rfl
    (by norm_num) (by norm_num) (by norm_num)
  rw [sub_self, abs_zero, add_zero] at this
  refine this.trans ?_
  have := abs_nonneg (v - a)
  generalize |v - a| = d at *
  norm_num; linarith

theorem labF_lipschitz {s t : ℝ} (hs : s ≤ 1.01) (ht : t ≤ 1.01) : |labF s - labF t| ≤ 84 * |s - t| := by
  have key : ∀ s t : ℝ, s ≤ t → t ≤ 1.01 → labF t - labF s ≤ 84 * (t - s) := by
    intro s t h ht
    have big : ∀ s t : ℝ, 216 / 24389 ≤ s → s ≤ t → t ≤ 1.01 → labF t - labF s ≤ 84 * (t - s) := by
      intro s t hs h ht
      rw [labF_of_ge hs, labF_of_ge (hs.trans h)]
      have := cbrt_near (v := t) (a := s) (by norm_num at hs ⊢; linarith) (by norm_num at hs ⊢; linarith) ht (by linarith)
      rw [abs_of_nonneg (show 0 ≤ t - s by linarith)] at this
      exact (le_abs_self _).trans this
    have low : ∀ s t : ℝ, s ≤ t → t ≤ 216 / 24389 → labF t - labF s ≤ 84 * (t - s) := by
      intro s t h ht
      rw [labF_of_le ht, labF_of_le (h.trans ht)]; linarith
    rcases le_total t (216 / 24389) with h1 | h1
    · exact low s t h h1
    · rcases le_total (216 / 24389) s with h2 | h2
      · exact big s t h2 h ht
      · have := low s _ h2 le_rfl
        have := big _ t le_rfl h1 ht
        linarith
  rcases le_total s t with h | h
  · have := labF_strictMono.monotone h
    rw [abs_sub_comm, abs_sub_comm s t, abs_of_nonneg (by linarith), abs_of_nonneg (by linarith)]
    exact key s t h ht
  · have := labF_strictMono.monotone h
    rw [abs_of_nonneg (by linarith), abs_of_nonneg (by linarith)]
    exact key t s h hs

theorem ap_e : Ap (216.0 / 24389.0 : F64 L) (216 / 24389) ρ :=
  ((ap216 (L := L)).div ap24389 (β := 24389) (Q := 1) (by norm_num) (by norm_num) (by norm_num) (by norm_num)).weaken
    (by norm_num)

theorem ap_kappa : Ap (24389.0 / 27.0 : F64 L) (24389 / 27) ρ :=
  ((ap24389 (L := L)).div ap27 (β := 27) (Q := 904) (by norm_num) (by norm_num) (by norm_num) (by norm_num)).weaken
    (by norm_num)

theorem ap_third : Ap (1.0 / 3.0 : F64 L) (1 / 3) ρ :=
  ((ap1 (L := L)).div ap3 (β := 3) (Q := 1) (by norm_num) (by norm_num) (by norm_num) (by norm_num)).weaken
    (by norm_num)

theorem ap_labF (hL : L.PowOk) {x : F64 L} {t δ : ℝ} (hx : Ap x t δ) (h0 : -0.06 ≤ t) (h1 : t ≤ 1.001)
    (hδ : δ ≤ 1 / 10 ^ 5) : Ap (labF x) (labF t) (100 * δ + 1 / 10 ^ 9) := by
  have hδ0 := hx.nonneg
  obtain ⟨v, hv, hd⟩ := hx
  obtain ⟨es, hes, hed⟩ := ap_e (L := L)
  have hd' := abs_le.1 hd
  have hed' := abs_le.1 hed
  have hρ : ρ = 1 / 10 ^ 12 := rfl
  simp only [labF]
  by_cases hb : x > (216.0 / 24389.0 : F64 L)
  · rw [if_pos hb]
    have hb' : es < v := by rwa [gt_iff_lt, hes.lt_iff hv] at hb
    have hv8 : 0.0088 ≤ v := by rw [hρ] at hed'; norm_num at hed' ⊢; linarith
    have hvm : v ≤ 1.01 := by norm_num at h1 hδ ⊢; linarith
    have hp := (hv.ap.pow hL ap_third (m := 0.008) (W := 0.34) (by norm_num) (by norm_num at hv8 ⊢; linarith)
      (by linarith) (by rw [hρ]; norm_num) (by rw [hρ]; norm_num) (by norm_num)).weaken (ε := 300 * ρ)
      (by rw [hρ]; norm_num)
    have hclose : |v ^ (1 / 3 : ℝ) - labF t| ≤ 92 * (δ + ρ) := by
      rcases le_or_gt (216 / 24389) t with ht | ht
      · rw [labF_of_ge ht]
        refine (cbrt_near (by norm_num at hv8 ⊢; linarith) (by norm_num at ht ⊢; linarith) hvm
          (by norm_num at h1 ⊢; linarith)).trans ?_
        have := ρ_pos
        linarith
      · have he : |v - 216 / 24389| ≤ δ + ρ := by
          have := ρ_pos
          rw [abs_le]; constructor <;> linarith
        have p1 := cbrt_near (v := v) (a := 216 / 24389) (by norm_num at hv8 ⊢; linarith) (by norm_num) hvm
          (by norm_num)
        rw [cbrt_e] at p1
        have p1 := p1.trans (mul_le_mul_of_nonneg_left he (by norm_num))
        rw [labF_of_le ht.le]
        rw [abs_le] at p1 he ⊢
        constructor <;> linarith
    exact (hp.shift hclose).weaken (by rw [hρ]; norm_num; linarith)
  · rw [if_neg hb]
    have hb' : v ≤ es := by rw [gt_iff_lt, hes.lt_iff hv] at hb; exact not_lt.1 hb
    have hvl : -0.07 ≤ v := by norm_num at h0 hδ ⊢; linarith
    have hvh : v ≤ 0.01 := by rw [hρ] at hed'; norm_num at hed' ⊢; linarith
    have hva : |v| ≤ 0.07 := by rw [abs_le]; norm_num at hvl hvh ⊢; constructor <;> linarith
    have m1 := ((ap_kappa (L := L)).mul hv.ap (A := 904) (B := 0.07) (by norm_num [abs_of_pos]) hva
      (by rw [hρ]; norm_num)).weaken (ε := 2 * ρ) (by rw [hρ]; norm_num)
    have hk : |24389 / 27 * v + 16| ≤ 80 := by
      rw [abs_le]; norm_num at hvl hvh ⊢; constructor <;> linarith
    have m2 := (m1.add ap16 (by rw [hρ]; norm_num; linarith)).weaken (ε := 3 * ρ) (by linarith)
    have m3 := (m2.div ap116 (β := 116) (Q := 1) (by norm_num) (by norm_num) (by linarith)
      (by rw [hρ]; norm_num)).weaken (ε := 2 * ρ) (by rw [hρ]; norm_num)
    have hclose : |(24389 / 27 * v + 16) / 116 - labF t| ≤ 92 * (δ + ρ) := by
      have := ρ_pos
      rcases le_or_gt t (216 / 24389) with ht | ht
      · rw [labF_of_le ht, abs_le]
        constructor <;> linarith
      · have he : |t - 216 / 24389| ≤ δ + ρ := by
          rw [abs_le]; constructor <;> linarith
        have p1 := cbrt_near (v := t) (a := 216 / 24389) (by norm_num at ht ⊢; linarith) (by norm_num)
          (by norm_num at h1 ⊢; linarith) (by norm_num)
        rw [cbrt_e] at p1
        rw [labF_of_gt ht]
        rw [abs_le] at p1 he ⊢
        have := he.2
        have q : |t - 216 / 24389| = t - 216 / 24389 := abs_of_pos (by linarith)
        rw [q] at p1
        constructor <;> linarith
    exact (m3.shift hclose).weaken (by rw [hρ]; norm_num; linarith)

theorem labInvf_lipschitz {f g : ℝ} (hf : f ≤ 1.1) (hg : g ≤ 1.1) : |labInvf f - labInvf g| ≤ 4 * |f - g| := by
  have key : ∀ p q : ℝ, p ≤ q → q ≤ 1.1 → labInvf q - labInvf p ≤ 4 * (q - p) := by
    intro p q hpq hq
    have big : ∀ p q : ℝ, 6 / 29 ≤ p → p ≤ q → q ≤ 1.1 → q ^ 3 - p ^ 3 ≤ 3.8 * (q - p) := by
      intro p q hp hpq hq
      have : q ^ 2 + q * p + p ^ 2 ≤ 3.8 := by norm_num at hq ⊢; nlinarith
      calc q ^ 3 - p ^ 3 = (q ^ 2 + q * p + p ^ 2) * (q - p) := by ring
        _ ≤ 3.8 * (q - p) := mul_le_mul_of_nonneg_right this (by linarith)
    rcases le_or_gt q (6 / 29) with h | h
    · rw [labInvf_of_le h, labInvf_of_le (hpq.trans h)]; linarith
    · rw [labInvf_of_gt h]
      rcases le_or_gt p (6 / 29) with h' | h'
      · rw [labInvf_of_le h']
        have := big (6 / 29) q le_rfl h.le hq
        norm_num at this ⊢
        linarith
      · rw [labInvf_of_gt h']
        have := big p q h'.le hpq hq
        norm_num at this ⊢
        linarith
  rcases le_total f g with h | h
  · have := labInvf_strictMono.monotone h
    rw [abs_sub_comm, abs_sub_comm f g, abs_of_nonneg (by linarith), abs_of_nonneg (by linarith)]
    exact key f g h hg
  · have := labInvf_strictMono.monotone h
    rw [abs_of_nonneg (by linarith), abs_of_nonneg (by linarith)]
    exact key g f h hf

theorem ap_labInvf {x : F64 L} {f δ : ℝ} (hx : Ap x f δ) (h0 : -1 ≤ f) (h1 : f ≤ 1.05) (hδ : δ ≤ 1 / 100) :
    Ap (labInvf x) (labInvf f) (4 * δ + 1 / 10 ^ 10) := by
  have hδ0 := hx.nonneg
  obtain ⟨v, hv, hd⟩ := hx
  have hd' := abs_le.1 hd
  have hρ : ρ = 1 / 10 ^ 12 := rfl
  have hv0 : -1.01 ≤ v := by norm_num at h0 hδ ⊢; linarith
  have hv1 : v ≤ 1.1 := by norm_num at h1 hδ ⊢; linarith
  have hva : |v| ≤ 1.1 := by rw [abs_le]; norm_num at hv0 hv1 ⊢; constructor <;> linarith
  have hlip := labInvf_lipschitz (f := v) (g := f) hv1 (by norm_num at h1 ⊢; linarith)
  have hlip : |labInvf v - labInvf f| ≤ 4 * δ := hlip.trans (by linarith)
  have s1 := (hv.ap.mul hv.ap (A := 1.1) (B := 1.1) hva hva (by norm_num)).weaken (ε := ρ) (by norm_num)
  have hvv : |v * v| ≤ 1.21 := by
    rw [abs_mul]; have := abs_nonneg v; generalize |v| = w at *; norm_num at hva ⊢; nlinarith
  have s2 := (s1.mul hv.ap (A := 1.21) (B := 1.1) hvv hva (by rw [hρ]; norm_num)).weaken (ε := 3 * ρ)
    (by rw [hρ]; norm_num)
  obtain ⟨c, hc, hcd⟩ := s2
  obtain ⟨es, hes, hed⟩ := ap_e (L := L)
  have hed' := abs_le.1 hed
  have hcd' := abs_le.1 hcd
  suffices Ap (labInvf x) (labInvf v) (1 / 10 ^ 10) from (this.shift hlip).weaken (by linarith)
  simp only [labInvf]
  by_cases hb : x * x * x > (216.0 / 24389.0 : F64 L)
  · rw [if_pos hb]
    have hb' : es < c := by rwa [gt_iff_lt, hes.lt_iff hc] at hb
    refine ⟨c, hc, ?_⟩
    show |c - labInvf v| ≤ _
    rcases le_or_gt v (6 / 29) with h | h
    · have hpos : 0 < v := by
        by_contra hcon
        have : v * v * v ≤ 0 := mul_nonpos_of_nonneg_of_nonpos (mul_self_nonneg v) (not_lt.1 hcon)
        rw [hρ] at *; norm_num at *; linarith
      have hu : (6 / 29 - v) * (36 / 841) ≤ 216 / 24389 - v * v * v := by
        have : 216 / 24389 - v * v * v = (6 / 29 - v) * (36 / 841 + 6 / 29 * v + v * v) := by ring
        rw [this]
        exact mul_le_mul_of_nonneg_left (by nlinarith) (by linarith)
      rw [labInvf_of_le h, abs_le]
      rw [hρ] at *
      norm_num at *
      constructor <;> linarith
    · rw [labInvf_of_gt h, abs_le, show v ^ 3 = v * v * v by ring]
      rw [hρ] at *
      norm_num at *
      constructor <;> linarith
  · rw [if_neg hb]
    have hb' : c ≤ es := by rw [gt_iff_lt, hes.lt_iff hc] at hb; exact not_lt.1 hb
    have m1 := ((ap116 (L := L)).mul hv.ap (A := 116) (B := 1.1) (by norm_num) hva (by norm_num)).weaken (ε := ρ)
      (by norm_num)
    have hv2 := abs_le.1 hva
    have m2 := (m1.sub ap16 (by
      have : |116 * v - 16| ≤ 150 := by rw [abs_le]; norm_num at hv2 ⊢; constructor <;> linarith
      rw [hρ]; norm_num; linarith)).weaken (ε := 2 * ρ) (by linarith)
    have m3 := (m2.div ap_kappa (β := 903) (Q := 1) (by norm_num [abs_of_pos]) (by rw [hρ]; norm_num)
      (by rw [abs_le]; norm_num at hv2 ⊢; constructor <;> linarith) (by rw [hρ]; norm_num)).weaken (ε := 2 * ρ)
      (by rw [hρ]; norm_num)
    have hclose : |(116 * v - 16) / (24389 / 27) - labInvf v| ≤ 20 * ρ := by
      rcases le_or_gt v (6 / 29) with h | h
      · rw [labInvf_of_le h, sub_self, abs_zero]; have := ρ_pos; linarith
      · have hu : (v - 6 / 29) * (36 / 841) ≤ v * v * v - 216 / 24389 := by
          have : v * v * v - 216 / 24389 = (v - 6 / 29) * (36 / 841 + 6 / 29 * v + v * v) := by ring
          rw [this]
          exact mul_le_mul_of_nonneg_left (by nlinarith) (by linarith)
        rw [labInvf_of_gt h, abs_le, show v ^ 3 = v * v * v by ring]
        have := ρ_pos
        norm_num at *
        constructor <;> linarith
    have := (m3.shift hclose).weaken (ε := 1 / 10 ^ 10) (by rw [hρ]; norm_num)
    exact this

/-! ### Matrices -/

theorem ap_dot {p q r x y z : F64 L} {P Q R X Y Z δ ε A B : ℝ} (hp : Ap p P δ) (hq : Ap q Q δ) (hr : Ap r R δ)
    (hx : Ap x X ε) (hy : Ap y Y ε) (hz : Ap z Z ε) (hP : |P| ≤ A) (hQ : |Q| ≤ A) (hR : |R| ≤ A)
    (hX : |X| ≤ B) (hY : |Y| ≤ B) (hZ : |Z| ≤ B) (hM : 2 * (A * B) + 3 * (A * ε + B * δ + δ * ε + ρ) + ρ ≤ 1000)
    (hS : |P * X + Q * Y + R * Z| + 3 * (A * ε + B * δ + δ * ε + ρ) + ρ ≤ 1000) :
    Ap (p * x + q * y + r * z) (P * X + Q * Y + R * Z) (3 * (A * ε + B * δ + δ * ε + ρ) + 2 * ρ) := by
  have hA : 0 ≤ A := (abs_nonneg _).trans hP
  have hB : 0 ≤ B := (abs_nonneg _).trans hX
  have hδ := hp.nonneg
  have hε := hx.nonneg
  have hAB := mul_nonneg hA hB
  have hE : 0 ≤ A * ε + B * δ + δ * ε := by positivity
  have hρ := ρ_pos
  have m1 := hp.mul hx hP hX (by linarith)
  have m2 := hq.mul hy hQ hY (by linarith)
  have m3 := hr.mul hz hR hZ (by linarith)
  have b : ∀ u v : ℝ, |u| ≤ A → |v| ≤ B → |u * v| ≤ A * B := fun u v hu hv => by
    rw [abs_mul]; exact mul_le_mul hu hv (abs_nonneg _) hA
  have s1 := m1.add m2 (by
    have := (abs_add_le (P * X) (Q * Y)).trans (add_le_add (b _ _ hP hX) (b _ _ hQ hY))
    linarith)
  have s2 := s1.add m3 (by linarith)
  exact s2.weaken (by linarith)

theorem ap_rgb (hL : L.PowOk) (argb : Int) :
    Ap (linearized (redFromArgb argb) : F64 L) (linearized (redFromArgb argb) : ℝ) (4 / 10 ^ 8) ∧
    Ap (linearized (greenFromArgb argb) : F64 L) (linearized (greenFromArgb argb) : ℝ) (4 / 10 ^ 8) ∧
    Ap (linearized (blueFromArgb argb) : F64 L) (linearized (blueFromArgb argb) : ℝ) (4 / 10 ^ 8) := by
  obtain ⟨hr, hg, hb⟩ := channel_range argb
  exact ⟨ap_linearized hL hr.1 hr.2, ap_linearized hL hg.1 hg.2, ap_linearized hL hb.1 hb.2⟩

theorem rgb_bounds (argb : Int) : (0 ≤ (linearized (redFromArgb argb) : ℝ) ∧ (linearized (redFromArgb argb) : ℝ) ≤ 100) ∧
    (0 ≤ (linearized (greenFromArgb argb) : ℝ) ∧ (linearized (greenFromArgb argb) : ℝ) ≤ 100) ∧
    (0 ≤ (linearized (blueFromArgb argb) : ℝ) ∧ (linearized (blueFromArgb argb) : ℝ) ≤ 100) := by
  obtain ⟨hr, hg, hb⟩ := channel_range argb
  exact ⟨linearized_range _ hr.1 hr.2, linearized_range _ hg.1 hg.2, linearized_range _ hb.1 hb.2⟩

/-- A row of the matrix from linear RGB to XYZ; the factors may come in either order. -/
theorem ap_row (hL : L.PowOk) (argb : Int) {p q r : F64 L} {P Q R : ℝ} (hp : Ap p P ρ) (hq : Ap q Q ρ) (hr : Ap r R ρ)
    (hP : |P| ≤ 1) (hQ : |Q| ≤ 1) (hR : |R| ≤ 1) :
    Ap (linearized (redFromArgb argb) * p + linearized (greenFromArgb argb) * q + linearized (blueFromArgb argb) * r)
      (linearized (redFromArgb argb) * P + linearized (greenFromArgb argb) * Q + linearized (blueFromArgb argb) * R)
      (13 / 10 ^ 8) ∧
    Ap (p * linearized (redFromArgb argb) + q * linearized (greenFromArgb argb) + r * linearized (blueFromArgb argb))
      (P * linearized (redFromArgb argb) + Q * linearized (greenFromArgb argb) + R * linearized (blueFromArgb argb))
      (13 / 10 ^ 8) := by
  obtain ⟨h1, h2, h3⟩ := ap_rgb hL argb
  obtain ⟨⟨r0, r1⟩, ⟨g0, g1⟩, b0, b1⟩ := rgb_bounds argb
  have hρ : ρ = 1 / 10 ^ 12 := rfl
  generalize (linearized (redFromArgb argb) : ℝ) = r at *
  generalize (linearized (greenFromArgb argb) : ℝ) = g at *
  generalize (linearized (blueFromArgb argb) : ℝ) = b at *
  have hr : |r| ≤ 100 := by rw [abs_of_nonneg r0]; exact r1
  have hg : |g| ≤ 100 := by rw [abs_of_nonneg g0]; exact g1
  have hb : |b| ≤ 100 := by rw [abs_of_nonneg b0]; exact b1
  have hs : |P * r + Q * g + R * b| ≤ 300 := by
    refine (abs_add_three _ _ _).trans ?_
    rw [abs_mul, abs_mul, abs_mul]
    have := mul_le_mul hP hr (abs_nonneg _) (by norm_num)
    have := mul_le_mul hQ hg (abs_nonneg _) (by norm_num)
    have := mul_le_mul hR hb (abs_nonneg _) (by norm_num)
    linarith
  constructor
  · refine (ap_dot h1 h2 h3 hp hq ‹Ap _ R _› hr hg hb hP hQ hR (by rw [hρ]; norm_num) ?_).weaken (by rw [hρ]; norm_num)
    rw [mul_comm r, mul_comm g, mul_comm b, hρ]; norm_num; linarith
  · refine (ap_dot hp hq ‹Ap _ R _› h1 h2 h3 hP hQ hR hr hg hb (by rw [hρ]; norm_num) ?_).weaken (by rw [hρ]; norm_num)
    rw [hρ]; norm_num; linarith

theorem ap_xyz (hL : L.PowOk) (argb : Int) :
    Ap (xyzFromArgb argb : Vec3 (F64 L)).x0 (xyzFromArgb argb : Vec3 ℝ).x0 (13 / 10 ^ 8) ∧
    Ap (xyzFromArgb argb : Vec3 (F64 L)).x1 (xyzFromArgb argb : Vec3 ℝ).x1 (13 / 10 ^ 8) ∧
    Ap (xyzFromArgb argb : Vec3 (F64 L)).x2 (xyzFromArgb argb : Vec3 ℝ).x2 (13 / 10 ^ 8) := by
  simp only [xyzFromArgb, matrixMultiply, srgbToXyz]
  refine ⟨(ap_row hL argb ?_ ?_ ?_ ?_ ?_ ?_).1, (ap_row hL argb ?_ ?_ ?_ ?_ ?_ ?_).1, (ap_row hL argb ?_ ?_ ?_ ?_ ?_ ?_).1⟩
  all_goals first
    | exact ap_lit rfl (by norm_num [abs_of_pos])
    | norm_num [abs_of_pos]

/-- A row of the matrix from XYZ to linear RGB. -/
theorem ap_back {p q r x y z : F64 L} {P Q R X Y Z : ℝ} (hp : Ap p P ρ) (hq : Ap q Q ρ) (hr : Ap r R ρ)
    (hx : Ap x X (5 / 10 ^ 4)) (hy : Ap y Y (5 / 10 ^ 4)) (hz : Ap z Z (5 / 10 ^ 4)) (hP : |P| ≤ 3.3) (hQ : |Q| ≤ 3.3)
    (hR : |R| ≤ 3.3) (hX : |X| ≤ 110) (hY : |Y| ≤ 110) (hZ : |Z| ≤ 110) (hS : |P * X + Q * Y + R * Z| ≤ 200) :
    Ap (p * x + q * y + r * z) (P * X + Q * Y + R * Z) (5 / 10 ^ 3) := by
  have hρ : ρ = 1 / 10 ^ 12 := rfl
  refine (ap_dot hp hq hr hx hy hz hP hQ hR hX hY hZ (by rw [hρ]; norm_num) ?_).weaken (by rw [hρ]; norm_num)
  rw [hρ]; norm_num; linarith

/-- XYZ values close to those of a colour give back the colour. -/
theorem argbFromXyz_near (hL : L.PowOk) (argb : Int) {x y z : F64 L}
    (hx : Ap x (xyzFromArgb argb : Vec3 ℝ).x0 (5 / 10 ^ 4)) (hy : Ap y (xyzFromArgb argb : Vec3 ℝ).x1 (5 / 10 ^ 4))
    (hz : Ap z (xyzFromArgb argb : Vec3 ℝ).x2 (5 / 10 ^ 4)) : argbFromXyz x y z = 0xFF000000 + argb % 2 ^ 24 := by
  obtain ⟨r0, g0, b0⟩ := rgb_bounds argb
  obtain ⟨hr, hg, hb⟩ := channel_range argb
  have hm := xyz_matrices _ _ _ r0 g0 b0
  have hX : |(xyzFromArgb argb : Vec3 ℝ).x0| ≤ 110 ∧ |(xyzFromArgb argb : Vec3 ℝ).x1| ≤ 110 ∧
      |(xyzFromArgb argb : Vec3 ℝ).x2| ≤ 110 := by
    simp only [xyzFromArgb, matrixMultiply, srgbToXyz]
    generalize (linearized (redFromArgb argb) : ℝ) = r at *
    generalize (linearized (greenFromArgb argb) : ℝ) = g at *
    generalize (linearized (blueFromArgb argb) : ℝ) = b at *
    norm_num
    refine ⟨?_, ?_, ?_⟩ <;> rw [abs_le] <;> constructor <;> linarith [r0.1, r0.2, g0.1, g0.2, b0.1, b0.2]
  have ev : xyzFromArgb argb = matrixMultiply ⟨(linearized (redFromArgb argb) : ℝ), linearized (greenFromArgb argb),
    linearized (blueFromArgb argb)⟩ srgbToXyz := rfl
  rw [← ev] at hm
  generalize (xyzFromArgb argb : Vec3 ℝ) = V at *
  obtain ⟨X, Y, Z⟩ := V
  obtain ⟨hX0, hY0, hZ0⟩ := hX
  simp only [matrixMultiply, xyzToSrgb] at hm hx hy hz hX0 hY0 hZ0
  obtain ⟨m1, m2, m3⟩ := hm
  have big : ∀ {s l : ℝ}, |s - l| ≤ 0.001 → (0 ≤ l ∧ l ≤ 100) → |s| ≤ 200 := by
    intro s l h h'
    rw [abs_le] at h ⊢; norm_num at h; constructor <;> linarith [h'.1, h'.2]
  rw [mul_comm X, mul_comm Y, mul_comm Z] at m1 m2 m3
  have e1 := delinearized_ap hL (ap_back (L := L) (p := 3.2413774792388685) (q := -1.5376652402851851)
      (r := -0.49885366846268053) (ap_lit rfl (by norm_num [abs_of_pos]))
      (Ap.neg (ap_lit rfl (by norm_num [abs_of_pos]))) (Ap.neg (ap_lit rfl (by norm_num [abs_of_pos]))) hx hy hz
      (by norm_num [abs_of_pos]) (by norm_num [abs_of_pos]) (by norm_num [abs_of_pos]) hX0 hY0 hZ0 (big m1 r0))
    hr.1 hr.2 (by norm_num at m1 ⊢; linarith)
  have e2 := delinearized_ap hL (ap_back (L := L) (p := -0.9691452513005321) (q := 1.8758853451067872)
      (r := 0.04156585616912061) (Ap.neg (ap_lit rfl (by norm_num [abs_of_pos])))
      (ap_lit rfl (by norm_num [abs_of_pos])) (ap_lit rfl (by norm_num [abs_of_pos])) hx hy hz
      (by norm_num [abs_of_pos]) (by norm_num [abs_of_pos]) (by norm_num [abs_of_pos]) hX0 hY0 hZ0 (big m2 g0))
    hg.1 hg.2 (by norm_num at m2 ⊢; linarith)
  have e3 := delinearized_ap hL (ap_back (L := L) (p := 0.05562093689691305) (q := -0.20395524564742123)
      (r := 1.0571799111220335) (ap_lit rfl (by norm_num [abs_of_pos]))
      (Ap.neg (ap_lit rfl (by norm_num [abs_of_pos]))) (ap_lit rfl (by norm_num [abs_of_pos])) hx hy hz
      (by norm_num [abs_of_pos]) (by norm_num [abs_of_pos]) (by norm_num [abs_of_pos]) hX0 hY0 hZ0 (big m3 b0))
    hb.1 hb.2 (by norm_num at m3 ⊢; linarith)
  simp only [argbFromXyz, xyzToSrgb]
  rw [e1, e2, e3]
  exact c02_unpack_pack argb

/-! ### L*a*b* -/

theorem labF_bounds {t : ℝ} (h0 : 0 ≤ t) (h1 : t ≤ 1.001) : 0 ≤ labF t ∧ labF t ≤ 1.001 := by
  have a := labF_strictMono.monotone h0
  have b := labF_strictMono.monotone h1
  rw [labF_of_le (t := 0) (by norm_num)] at a
  have c : labF (1.001 : ℝ) ≤ 1.001 := by
    rw [labF_of_gt (by norm_num), show (1 / 3 : ℝ) = ((1 : ℕ) : ℝ) / ((3 : ℕ) : ℝ) by norm_num]
    apply rpow_le_of_le_pow <;> norm_num
  constructor
  · norm_num at a; linarith
  · linarith

/-- The three values of the L* curve used for L*a*b*. -/
theorem ap_curve (hL : L.PowOk) {x w : F64 L} {X W : ℝ} (hx : Ap x X (13 / 10 ^ 8)) (hw : Ap w W ρ) (hW : 95 ≤ W)
    (hX0 : 0 ≤ X) (hX1 : X ≤ 1.0001 * W) (hW1 : W ≤ 110) :
    Ap (labF (x / w)) (labF (X / W)) (15 / 10 ^ 8) ∧ 0 ≤ labF (X / W) ∧ labF (X / W) ≤ 1.001 := by
  have hρ : ρ = 1 / 10 ^ 12 := rfl
  have hq0 : 0 ≤ X / W := by positivity
  have hq1 : X / W ≤ 1.0001 := by rw [div_le_iff₀ (by linarith)]; exact hX1
  have d := (hx.div hw (β := 95) (Q := 2) (by rw [abs_of_nonneg (by linarith)]; exact hW) (by rw [hρ]; norm_num)
    (by rw [abs_of_nonneg hX0]; norm_num at hX1 ⊢; linarith) (by rw [hρ]; norm_num)).weaken (ε := 14 / 10 ^ 10)
    (by rw [hρ]; norm_num)
  refine ⟨(ap_labF hL d (by norm_num; linarith) (by norm_num at hq1 ⊢; linarith) (by norm_num)).weaken (by norm_num), ?_⟩
  exact labF_bounds hq0 (by norm_num at hq1 ⊢; linarith)

theorem back_y {u : F64 L} {B : ℝ} (fy : Ap u B (15 / 10 ^ 8)) (fy0 : 0 ≤ B) (fy1 : B ≤ 1.001) :
    Ap ((116.0 * u - 16.0 + 16.0) / 116.0) B (2 / 10 ^ 7) := by
  have hρ : ρ = 1 / 10 ^ 12 := rfl
  norm_num at fy1
  have hB : |B| ≤ 1.001 := by rw [abs_of_nonneg fy0]; norm_num; linarith
  have l1 := ((ap116 (L := L)).mul fy (A := 116) (B := 1.001) (by norm_num) hB (by norm_num)).weaken
    (ε := 18 / 10 ^ 6) (by rw [hρ]; norm_num)
  have l2 := (l1.sub ap16 (by
    have : |116 * B - 16| ≤ 110 := by rw [abs_le]; constructor <;> linarith
    norm_num; linarith)).weaken (ε := 19 / 10 ^ 6) (by rw [hρ]; norm_num)
  have l3 := (l2.add ap16 (by
    have : |116 * B - 16 + 16| ≤ 120 := by rw [abs_le]; constructor <;> linarith
    norm_num; norm_num at this; linarith)).weaken (ε := 20 / 10 ^ 6) (by rw [hρ]; norm_num)
  have l4 := (l3.div ap116 (β := 116) (Q := 2) (by norm_num) (by norm_num)
    (by rw [abs_le]; constructor <;> linarith) (by norm_num)).weaken (ε := 2 / 10 ^ 7) (by rw [hρ]; norm_num)
  rwa [show (116 * B - 16 + 16) / 116 = B by ring] at l4

theorem back_x {u v w : F64 L} {A B : ℝ} (fx : Ap u A (15 / 10 ^ 8)) (fx0 : 0 ≤ A) (fx1 : A ≤ 1.001)
    (fy : Ap v B (15 / 10 ^ 8)) (fy0 : 0 ≤ B) (fy1 : B ≤ 1.001) (hw : Ap w B (2 / 10 ^ 7)) :
    Ap (500.0 * (u - v) / 500.0 + w) A (9 / 10 ^ 7) := by
  have hρ : ρ = 1 / 10 ^ 12 := rfl
  norm_num at fx1 fy1
  have d1 := (fx.sub fy (by
    have : |A - B| ≤ 2 := by rw [abs_le]; constructor <;> linarith
    norm_num; linarith)).weaken (ε := 4 / 10 ^ 7) (by rw [hρ]; norm_num)
  have d2 := ((ap500 (L := L)).mul d1 (A := 500) (B := 1.01) (by norm_num)
    (by rw [abs_le]; norm_num; constructor <;> linarith) (by norm_num)).weaken (ε := 25 / 10 ^ 5)
    (by rw [hρ]; norm_num)
  have d3 := (d2.div ap500 (β := 500) (Q := 2) (by norm_num) (by norm_num)
    (by rw [abs_le]; constructor <;> linarith) (by norm_num)).weaken (ε := 6 / 10 ^ 7) (by rw [hρ]; norm_num)
  have d4 := (d3.add hw (by
    have : |500 * (A - B) / 500 + B| ≤ 2 := by rw [abs_le]; constructor <;> linarith
    norm_num; norm_num at this; linarith)).weaken (ε := 9 / 10 ^ 7) (by rw [hρ]; norm_num)
  rwa [show 500 * (A - B) / 500 + B = A by ring] at d4

theorem back_z {u v w : F64 L} {A B : ℝ} (fx : Ap u A (15 / 10 ^ 8)) (fx0 : 0 ≤ A) (fx1 : A ≤ 1.001)
    (fy : Ap v B (15 / 10 ^ 8)) (fy0 : 0 ≤ B) (fy1 : B ≤ 1.001) (hw : Ap w B (2 / 10 ^ 7)) :
    Ap (w - 200.0 * (v - u) / 200.0) A (9 / 10 ^ 7) := by
  have hρ : ρ = 1 / 10 ^ 12 := rfl
  norm_num at fx1 fy1
  have d1 := (fy.sub fx (by
    have : |B - A| ≤ 2 := by rw [abs_le]; constructor <;> linarith
    norm_num; linarith)).weaken (ε := 4 / 10 ^ 7) (by rw [hρ]; norm_num)
  have d2 := ((ap200 (L := L)).mul d1 (A := 200) (B := 1.01) (by norm_num)
    (by rw [abs_le]; norm_num; constructor <;> linarith) (by norm_num)).weaken (ε := 1 / 10 ^ 4)
    (by rw [hρ]; norm_num)
  have d3 := (d2.div ap200 (β := 200) (Q := 2) (by norm_num) (by norm_num)
    (by rw [abs_le]; constructor <;> linarith) (by norm_num)).weaken (ε := 6 / 10 ^ 7) (by rw [hρ]; norm_num)
  have d4 := (hw.sub d3 (by
    have : |B - 200 * (B - A) / 200| ≤ 2 := by rw [abs_le]; constructor <;> linarith
    norm_num; norm_num at this; linarith)).weaken (ε := 9 / 10 ^ 7) (by rw [hρ]; norm_num)
  rwa [show B - 200 * (B - A) / 200 = A by ring] at d4

theorem back_last {u w : F64 L} {A X W : ℝ} (h : Ap u A (9 / 10 ^ 7)) (h0 : 0 ≤ A) (h1 : A ≤ 1.001)
    (hi : labInvf A = X / W) (hw : Ap w W ρ) (hW : 95 ≤ W) (hW1 : W ≤ 109) (hX0 : 0 ≤ X) (hX1 : X ≤ 1.0001 * W) :
    Ap (labInvf u * w) X (5 / 10 ^ 4) := by
  have hρ : ρ = 1 / 10 ^ 12 := rfl
  have d5 := (ap_labInvf h (by linarith) (by norm_num at h1 ⊢; linarith) (by norm_num)).weaken (ε := 4 / 10 ^ 6)
    (by norm_num)
  rw [hi] at d5
  have hq : |X / W| ≤ 1.01 := by
    rw [abs_of_nonneg (by positivity), div_le_iff₀ (by linarith)]
    norm_num at hX1 ⊢; linarith
  have d6 := d5.mul hw (A := 1.01) (B := 109) hq (by rw [abs_of_nonneg (by linarith)]; exact hW1) (by rw [hρ]; norm_num)
  rw [div_mul_cancel₀ _ (by linarith)] at d6
  exact d6.weaken (by rw [hρ]; norm_num)

/-- A double close to the L*a*b* values of a colour gives back the colour. -/
theorem lab_round_trip (hL : L.PowOk) (argb : Int) :
    argbFromLab (labFromArgb argb : Vec3 (F64 L)).x0 (labFromArgb argb : Vec3 (F64 L)).x1
      (labFromArgb argb : Vec3 (F64 L)).x2 = 0xFF000000 + argb % 2 ^ 24 := by
  have hρ : ρ = 1 / 10 ^ 12 := rfl
  obtain ⟨r0, g0, b0⟩ := rgb_bounds argb
  -- XYZ
  have hx := (ap_row hL argb (p := 0.41233895) (q := 0.35762064) (r := 0.18051042)
    (ap_lit rfl (by norm_num [abs_of_pos])) (ap_lit rfl (by norm_num [abs_of_pos]))
    (ap_lit rfl (by norm_num [abs_of_pos])) (by norm_num [abs_of_pos]) (by norm_num [abs_of_pos])
    (by norm_num [abs_of_pos])).2
  have hy := (ap_row hL argb (p := 0.2126) (q := 0.7152) (r := 0.0722)
    (ap_lit rfl (by norm_num [abs_of_pos])) (ap_lit rfl (by norm_num [abs_of_pos]))
    (ap_lit rfl (by norm_num [abs_of_pos])) (by norm_num [abs_of_pos]) (by norm_num [abs_of_pos])
    (by norm_num [abs_of_pos])).2
  have hz := (ap_row hL argb (p := 0.01932141) (q := 0.11916382) (r := 0.95034478)
    (ap_lit rfl (by norm_num [abs_of_pos])) (ap_lit rfl (by norm_num [abs_of_pos]))
    (ap_lit rfl (by norm_num [abs_of_pos])) (by norm_num [abs_of_pos]) (by norm_num [abs_of_pos])
    (by norm_num [abs_of_pos])).2
  have wx : Ap (95.047 : F64 L) 95.047 ρ := ap_lit rfl (by norm_num [abs_of_pos])
  have wy : Ap (100.0 : F64 L) 100 ρ := ap100.weaken ρ_pos.le
  have wz : Ap (108.883 : F64 L) 108.883 ρ := ap_lit rfl (by norm_num [abs_of_pos])
  -- the final values wanted
  have near := fun (x y z : F64 L) => argbFromXyz_near hL argb (x := x) (y := y) (z := z)
  have ex : (xyzFromArgb argb : Vec3 ℝ).x0 = 0.41233895 * linearized (redFromArgb argb) +
      0.35762064 * linearized (greenFromArgb argb) + 0.18051042 * linearized (blueFromArgb argb) := by
    simp only [xyzFromArgb, matrixMultiply, srgbToXyz]; ring
  have ey : (xyzFromArgb argb : Vec3 ℝ).x1 = 0.2126 * linearized (redFromArgb argb) +
      0.7152 * linearized (greenFromArgb argb) + 0.0722 * linearized (blueFromArgb argb) := by
    simp only [xyzFromArgb, matrixMultiply, srgbToXyz]; ring
  have ez : (xyzFromArgb argb : Vec3 ℝ).x2 = 0.01932141 * linearized (redFromArgb argb) +
      0.11916382 * linearized (greenFromArgb argb) + 0.95034478 * linearized (blueFromArgb argb) := by
    simp only [xyzFromArgb, matrixMultiply, srgbToXyz]; ring
  rw [ex, ey, ez] at near
  simp only [argbFromLab, labFromArgb, whitePointD65, srgbToXyz]
  apply near <;> clear near ex ey ez
  all_goals
    generalize (linearized (redFromArgb argb) : ℝ) = r at *
    generalize (linearized (greenFromArgb argb) : ℝ) = g at *
    generalize (linearized (blueFromArgb argb) : ℝ) = b at *
    generalize hX : 0.41233895 * r + 0.35762064 * g + 0.18051042 * b = X at *
    generalize hY : 0.2126 * r + 0.7152 * g + 0.0722 * b = Y at *
    generalize hZ : 0.01932141 * r + 0.11916382 * g + 0.95034478 * b = Z at *
    generalize (0.41233895 * linearized (redFromArgb argb) + 0.35762064 * linearized (greenFromArgb argb) +
      0.18051042 * linearized (blueFromArgb argb) : F64 L) = x at *
    generalize (0.2126 * linearized (redFromArgb argb) + 0.7152 * linearized (greenFromArgb argb) +
      0.0722 * linearized (blueFromArgb argb) : F64 L) = y at *
    generalize (0.01932141 * linearized (redFromArgb argb) + 0.11916382 * linearized (greenFromArgb argb) +
      0.95034478 * linearized (blueFromArgb argb) : F64 L) = z at *
    have bX : 0 ≤ X ∧ X ≤ 1.0001 * 95.047 := by
      rw [← hX]; norm_num; constructor <;> linarith [r0.1, r0.2, g0.1, g0.2, b0.1, b0.2]
    have bY : 0 ≤ Y ∧ Y ≤ 1.0001 * 100 := by
      rw [← hY]; norm_num; constructor <;> linarith [r0.1, r0.2, g0.1, g0.2, b0.1, b0.2]
    have bZ : 0 ≤ Z ∧ Z ≤ 1.0001 * 108.883 := by
      rw [← hZ]; norm_num; constructor <;> linarith [r0.1, r0.2, g0.1, g0.2, b0.1, b0.2]
    obtain ⟨fx, fx0, fx1⟩ := ap_curve hL hx wx (by norm_num) bX.1 bX.2 (by norm_num)
    obtain ⟨fy, fy0, fy1⟩ := ap_curve hL hy wy (by norm_num) bY.1 bY.2 (by norm_num)
    obtain ⟨fz, fz0, fz1⟩ := ap_curve hL hz wz (by norm_num) bZ.1 bZ.2 (by norm_num)
    have iX := labInvf_labF (X / 95.047)
    have iY := labInvf_labF (Y / 100)
    have iZ := labInvf_labF (Z / 108.883)
    generalize labF (x / (95.047 : F64 L)) = ux at *
    generalize labF (y / (100.0 : F64 L)) = uy at *
    generalize labF (z / (108.883 : F64 L)) = uz at *
    generalize labF (X / 95.047) = A at *
    generalize labF (Y / 100) = B at *
    generalize labF (Z / 108.883) = C at *
    have hb := back_y fy fy0 fy1
  · exact back_last (back_x fx fx0 fx1 fy fy0 fy1 hb) fx0 fx1 iX wx (by norm_num) (by norm_num) bX.1 bX.2
  · exact back_last (hb.weaken (by norm_num)) fy0 fy1 iY wy (by norm_num) (by norm_num) bY.1 bY.2
  · exact back_last (back_z fz fz0 fz1 fy fy0 fy1 hb) fz0 fz1 iZ wz (by norm_num) (by norm_num) bZ.1 bZ.2

end Mcu.Lemmas
