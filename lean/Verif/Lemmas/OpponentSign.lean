import Verif.Lemmas.OpponentFar

/-! The yellow-blue coordinate decreases with the blue channel, hence it is not near zero for any colour but black. -/

namespace Mcu.Lemmas

open Mcu.ColorUtils Mcu.MathUtils Props Real

namespace Opp

/-! ### Monotonicity -/

/-- Minus the slope of `1 / den`. -/
noncomputable def slope (t : ℝ) : ℝ := 0.42 * t ^ (0.42 - 1 : ℝ) / den t ^ 2

theorem hasDerivAt_inv_den {t : ℝ} (h : 0 < t) : HasDerivAt (fun t => 1 / den t) (-slope t) t := by
  have hd : den t ≠ 0 := (lt_of_lt_of_le (by norm_num) (den_ge h.le)).ne'
  have h1 : HasDerivAt den (0.42 * t ^ (0.42 - 1 : ℝ)) t :=
    (Real.hasDerivAt_rpow_const (p := 0.42) (Or.inl h.ne')).add_const _
  have h2 := h1.inv hd
  have e : (fun t => 1 / den t) = den⁻¹ := by funext t; simp
  rw [e]
  refine h2.congr_deriv ?_
  unfold slope
  ring

theorem slope_le {β β' t t' : ℝ} (β0 : 0 ≤ β) (hβ : 9 * β ≤ β') (t0 : 0 < t) (t0' : 0 < t') (h : t' ≤ 12 * t) (h1 : t' ≤ 0.41) :
    β * slope t ≤ β' * slope t' := by
  have hd := den_ge t0.le
  have hd' := den_ge t0'.le
  have hu := den_le t0'.le h1
  have e : (0.42 - 1 : ℝ) = -0.58 := by norm_num
  have key : t ^ (0.42 - 1 : ℝ) ≤ 5 * t' ^ (0.42 - 1 : ℝ) := by
    rw [e]
    have hp : t' / 12 ≤ t := by linarith
    have h2 : t ^ (-0.58 : ℝ) ≤ (t' / 12) ^ (-0.58 : ℝ) := Real.rpow_le_rpow_of_nonpos (by positivity) hp (by norm_num)
    have h3 : (t' / 12) ^ (-0.58 : ℝ) = t' ^ (-0.58 : ℝ) * 12 ^ (0.58 : ℝ) := by
      rw [div_rpow t0'.le (by norm_num), rpow_neg (by norm_num : (0:ℝ) ≤ 12), div_inv_eq_mul]
    have h4 : (12 : ℝ) ^ (0.58 : ℝ) ≤ 5 := by
      rw [show (0.58 : ℝ) = ((29 : ℕ) : ℝ) / ((50 : ℕ) : ℝ) by norm_num]
      exact rpow_le_of_le_pow (by norm_num) (by norm_num) (by norm_num) (by norm_num)
    rw [h3] at h2
    have : t' ^ (-0.58 : ℝ) * 12 ^ (0.58 : ℝ) ≤ t' ^ (-0.58 : ℝ) * 5 := by gcongr
    linarith
  have p0 : 0 ≤ t ^ (0.42 - 1 : ℝ) := by positivity
  have p0' : 0 ≤ t' ^ (0.42 - 1 : ℝ) := by positivity
  unfold slope
  generalize t ^ (0.42 - 1 : ℝ) = p at *
  generalize t' ^ (0.42 - 1 : ℝ) = p' at *
  generalize den t = d at *
  generalize den t' = d' at *
  have dp : 0 < d := lt_of_lt_of_le (by norm_num) hd
  have dp' : 0 < d' := lt_of_lt_of_le (by norm_num) hd'
  have sq : d' ^ 2 ≤ 1.5 * d ^ 2 := by
    have a := pow_le_pow_left₀ dp'.le hu 2
    have b := pow_le_pow_left₀ (by norm_num) hd 2
    norm_num at a b ⊢
    linarith
  have β0' : 0 ≤ β' := by linarith
  calc β * (0.42 * p / d ^ 2) ≤ β' / 9 * (0.42 * (5 * p') / d ^ 2) := by
        gcongr
        linarith
    _ = β' * (0.42 * p' * (5 / 9)) / d ^ 2 := by ring
    _ ≤ β' * (0.42 * p' * (5 / 9)) / (d' ^ 2 / 1.5) := by
        gcongr
        rw [div_le_iff₀ (by norm_num)]; linarith
    _ = β' * (0.42 * p' / d' ^ 2) * (5 / 9 * 1.5) := by field_simp
    _ ≤ β' * (0.42 * p' / d' ^ 2) * 1 := by gcongr; norm_num
    _ = _ := mul_one _

theorem yb_anti {r g : ℝ} (hr : 0 ≤ r ∧ r ≤ 100) (hg : 0 ≤ g ∧ g ≤ 100) : AntitoneOn (fun b => yb r g b) (Set.Icc 0 100) := by
  have hk := k_bounds
  obtain ⟨⟨a0, a1⟩, ⟨b0, b1⟩, c0, c1⟩ := hk
  have cont {s : ℝ → ℝ} (hs : Continuous s) (h0 : ∀ b ∈ Set.Icc (0:ℝ) 100, 0 ≤ s b) : ContinuousOn (fun b => 1 / den (s b)) (Set.Icc 0 100) := by
    refine ContinuousOn.div continuousOn_const ?_ ?_
    · unfold den
      exact ((hs.rpow_const (fun x => Or.inr (by norm_num))).add continuous_const).continuousOn
    · intro b hb
      exact (lt_of_lt_of_le (by norm_num) (den_ge (h0 b hb))).ne'
  have c0' : Continuous fun b => s0 r g b := by unfold s0; fun_prop
  have c1' : Continuous fun b => s1 r g b := by unfold s1; fun_prop
  have c2' : Continuous fun b => s2 r g b := by unfold s2; fun_prop
  have hder : ∀ b ∈ Set.Ioo (0:ℝ) 100, ∃ d ≤ 0, HasDerivAt (fun b => yb r g b) d b := by
    intro b hb
    obtain ⟨t0, t1, t2⟩ := s_range hr hg ⟨hb.1.le, hb.2.le⟩
    have q0 : 0 < s0 r g b := by
      have := hr.1; have := hg.1; have := hb.1
      unfold s0
      exact mul_pos (lt_of_lt_of_le (by norm_num) a0) (by positivity)
    have q1 : 0 < s1 r g b := by
      have := hr.1; have := hg.1; have := hb.1
      unfold s1
      exact mul_pos (lt_of_lt_of_le (by norm_num) b0) (by positivity)
    have q2 : 0 < s2 r g b := by
      have := hr.1; have := hg.1; have := hb.1
      unfold s2
      exact mul_pos (lt_of_lt_of_le (by norm_num) c0) (by positivity)
    have d0 : HasDerivAt (fun b => s0 r g b) (k0 * 0.07047346329738) b := by
      unfold s0
      have := (((hasDerivAt_id b).const_mul (0.07047346329738 : ℝ)).const_add (0.30269915328759 * r + 0.6023803116433 * g)).const_mul k0
      simpa using this
    have d1 : HasDerivAt (fun b => s1 r g b) (k1 * 0.08535981854956) b := by
      unfold s1
      have := (((hasDerivAt_id b).const_mul (0.08535981854956 : ℝ)).const_add (0.15374913599554 * r + 0.77736002827076 * g)).const_mul k1
      simpa using this
    have d2 : HasDerivAt (fun b => s2 r g b) (k2 * 0.90895832236388) b := by
      unfold s2
      have := (((hasDerivAt_id b).const_mul (0.90895832236388 : ℝ)).const_add (0.02796570007202 * r + 0.14784523135458 * g)).const_mul k2
      simpa using this
    have e0 := (hasDerivAt_inv_den q0).comp b d0
    have e1 := (hasDerivAt_inv_den q1).comp b d1
    have e2 := (hasDerivAt_inv_den q2).comp b d2
    have tot := (((e2.const_mul 2).sub e0).sub e1).const_mul (400 * 27.13)
    refine ⟨400 * 27.13 * (2 * (-slope (s2 r g b) * (k2 * 0.90895832236388)) - -slope (s0 r g b) * (k0 * 0.07047346329738) -
        -slope (s1 r g b) * (k1 * 0.08535981854956)), ?_, ?_⟩
    · have r0 := hr.1; have g0 := hg.1; have x0 := hb.1
      have bnd {k k' u l x y z x' y' z' : ℝ} (hu : k' ≤ u) (hl : l ≤ k) (l0 : 0 ≤ l) (p0 : 0 ≤ x') (p1 : 0 ≤ y') (p2 : 0 ≤ z') (hx : u * x' ≤ 12 * (l * x)) (hy : u * y' ≤ 12 * (l * y)) (hz : u * z' ≤ 12 * (l * z))
          (w0 : 0 ≤ x) (w1 : 0 ≤ y) (w2 : 0 ≤ z) :
          k' * (x' * r + y' * g + z' * b) ≤ 12 * (k * (x * r + y * g + z * b)) := by
        have h1 := mul_le_mul_of_nonneg_right hu (show 0 ≤ x' * r + y' * g + z' * b by positivity)
        have h2 := mul_le_mul_of_nonneg_right hl (show 0 ≤ x * r + y * g + z * b by positivity)
        have h3 := mul_le_mul_of_nonneg_right hx r0
        have h4 := mul_le_mul_of_nonneg_right hy g0
        have h5 := mul_le_mul_of_nonneg_right hz x0.le
        linarith
      have f0 : s2 r g b ≤ 12 * s0 r g b := by
        unfold s2 s0
        refine bnd c1 a0 ?_ ?_ ?_ ?_ ?_ ?_ ?_ ?_ ?_ ?_ <;> norm_num
      have f1 : s2 r g b ≤ 12 * s1 r g b := by
        unfold s2 s1
        refine bnd c1 b0 ?_ ?_ ?_ ?_ ?_ ?_ ?_ ?_ ?_ ?_ <;> norm_num
      have g0 := slope_le (β := k0 * 0.07047346329738) (β' := k2 * 0.90895832236388) (mul_nonneg (le_trans (by norm_num) a0) (by norm_num))
        (by norm_num at a1 c0 ⊢; linarith) q0 q2 f0 t2.2
      have g1 := slope_le (β := k1 * 0.08535981854956) (β' := k2 * 0.90895832236388) (mul_nonneg (le_trans (by norm_num) b0) (by norm_num))
        (by norm_num at b1 c0 ⊢; linarith) q1 q2 f1 t2.2
      refine mul_nonpos_of_nonneg_of_nonpos (by norm_num) ?_
      linarith
    · refine tot.congr_of_eventuallyEq ?_
      refine Filter.Eventually.of_forall fun x => ?_
      show yb r g x = 400 * 27.13 * (2 * (1 / den (s2 r g x)) - 1 / den (s0 r g x) - 1 / den (s1 r g x))
      unfold yb; ring
  refine antitoneOn_of_deriv_nonpos (convex_Icc 0 100) ?_ ?_ ?_
  · have h2 := (cont c2' (fun b hb => (s_range hr hg hb).2.2.1)).const_smul (2 : ℝ)
    have h0 := cont c0' (fun b hb => (s_range hr hg hb).1.1)
    have h1 := cont c1' (fun b hb => (s_range hr hg hb).2.1.1)
    have := ((h2.sub h0).sub h1).const_smul (400 * 27.13 : ℝ)
    refine this.congr ?_
    intro x _
    show yb r g x = 400 * 27.13 * (2 * (1 / den (s2 r g x)) - 1 / den (s0 r g x) - 1 / den (s1 r g x))
    unfold yb; ring
  · intro b hb
    rw [interior_Icc] at hb
    obtain ⟨d, -, h⟩ := hder b hb
    exact h.differentiableAt.differentiableWithinAt
  · intro b hb
    rw [interior_Icc] at hb
    obtain ⟨d, hd, h⟩ := hder b hb
    rw [h.deriv]; exact hd

/-! ### All colours -/

theorem row_spec {r T : Nat} : ∀ {n g : Nat}, row r T n = true → g < n → pair r g (Nat.land (Nat.shiftRight T (Nat.mul 9 g)) 511) = true := by
  intro n
  induction n with
  | zero => intro g _ h; omega
  | succ n ih =>
    intro g h hg
    have h : both (pair r n (Nat.land (Nat.shiftRight T (Nat.mul 9 n)) 511)) (row r T n) = true := h
    obtain ⟨h1, h2⟩ := both_true h
    rcases Nat.lt_or_ge g n with hl | hl
    · exact ih h2 hl
    · have : g = n := by omega
      subst this
      exact h1

theorem rows_spec : ∀ {l : List Nat} {r r' : Nat}, rows r l = true → r ≤ r' → r' < r + l.length → ∃ T, row r' T 256 = true := by
  intro l
  induction l with
  | nil => intro r r' _ h1 h2; simp at h2; omega
  | cons T l ih =>
    intro r r' h h1 h2
    have h : both (row r T 256) (rows (Nat.succ r) l) = true := h
    obtain ⟨h3, h4⟩ := both_true h
    rcases Nat.eq_or_lt_of_le h1 with he | hl
    · subst he; exact ⟨T, h3⟩
    · refine ih h4 hl ?_
      rw [List.length_cons] at h2
      omega

theorem all_rows (r : Nat) (hr : r < 256) : ∃ T, row r T 256 = true := by
  by_cases h0 : r < 8
  · exact rows_spec rows0 (by omega) (by simpa using h0)
  by_cases h8 : r < 16
  · exact rows_spec rows8 (by omega) (by simpa using h8)
  by_cases h16 : r < 24
  · exact rows_spec rows16 (by omega) (by simpa using h16)
  by_cases h24 : r < 32
  · exact rows_spec rows24 (by omega) (by simpa using h24)
  by_cases h32 : r < 40
  · exact rows_spec rows32 (by omega) (by simpa using h32)
  by_cases h40 : r < 48
  · exact rows_spec rows40 (by omega) (by simpa using h40)
  by_cases h48 : r < 56
  · exact rows_spec rows48 (by omega) (by simpa using h48)
  by_cases h56 : r < 64
  · exact rows_spec rows56 (by omega) (by simpa using h56)
  by_cases h64 : r < 72
  · exact rows_spec rows64 (by omega) (by simpa using h64)
  by_cases h72 : r < 80
  · exact rows_spec rows72 (by omega) (by simpa using h72)
  by_cases h80 : r < 88
  · exact rows_spec rows80 (by omega) (by simpa using h80)
  by_cases h88 : r < 96
  · exact rows_spec rows88 (by omega) (by simpa using h88)
  by_cases h96 : r < 104
  · exact rows_spec rows96 (by omega) (by simpa using h96)
  by_cases h104 : r < 112
  · exact rows_spec rows104 (by omega) (by simpa using h104)
  by_cases h112 : r < 120
  · exact rows_spec rows112 (by omega) (by simpa using h112)
  by_cases h120 : r < 128
  · exact rows_spec rows120 (by omega) (by simpa using h120)
  by_cases h128 : r < 136
  · exact rows_spec rows128 (by omega) (by simpa using h128)
  by_cases h136 : r < 144
  · exact rows_spec rows136 (by omega) (by simpa using h136)
  by_cases h144 : r < 152
  · exact rows_spec rows144 (by omega) (by simpa using h144)
  by_cases h152 : r < 160
  · exact rows_spec rows152 (by omega) (by simpa using h152)
  by_cases h160 : r < 168
  · exact rows_spec rows160 (by omega) (by simpa using h160)
  by_cases h168 : r < 176
  · exact rows_spec rows168 (by omega) (by simpa using h168)
  by_cases h176 : r < 184
  · exact rows_spec rows176 (by omega) (by simpa using h176)
  by_cases h184 : r < 192
  · exact rows_spec rows184 (by omega) (by simpa using h184)
  by_cases h192 : r < 200
  · exact rows_spec rows192 (by omega) (by simpa using h192)
  by_cases h200 : r < 208
  · exact rows_spec rows200 (by omega) (by simpa using h200)
  by_cases h208 : r < 216
  · exact rows_spec rows208 (by omega) (by simpa using h208)
  by_cases h216 : r < 224
  · exact rows_spec rows216 (by omega) (by simpa using h216)
  by_cases h224 : r < 232
  · exact rows_spec rows224 (by omega) (by simpa using h224)
  by_cases h232 : r < 240
  · exact rows_spec rows232 (by omega) (by simpa using h232)
  by_cases h240 : r < 248
  · exact rows_spec rows240 (by omega) (by simpa using h240)
  by_cases h248 : r < 256
  · exact rows_spec rows248 (by omega) (by simpa using h248)
  omega

/-- No colour but black has a yellow-blue coordinate near zero. -/
theorem yb_far {r g b : Nat} (hr : r < 256) (hg : g < 256) (hb : b < 256) (h : ¬ (r = 0 ∧ g = 0 ∧ b = 0)) :
    0.00000081 ≤ |yb (ll r) (ll g) (ll b)| := by
  obtain ⟨T, hT⟩ := all_rows r hr
  have hp := row_spec hT hg
  generalize Nat.land (Nat.shiftRight T (Nat.mul 9 g)) 511 = n at hp
  obtain ⟨hn, hp⟩ := both_true hp
  have hn : n ≤ 256 := Nat.le_of_ble_eq_true hn
  obtain ⟨h1, h2⟩ := both_true hp
  have anti := yb_anti (ll_range hr) (ll_range hg)
  have mono {c d : Nat} (hc : c ≤ d) : ll c ≤ ll d := c10_strictMono.monotone (show (c : ℤ) ≤ d by exact_mod_cast hc)
  rcases Nat.lt_or_ge b n with hbn | hbn
  · rcases other_true h2 with h2 | h2
    · have : n ≤ 0 := Nat.le_of_ble_eq_true h2
      omega
    · rcases other_true h2 with h2 | h2
      · have : r + g + n ≤ 1 := Nat.le_of_ble_eq_true h2
        omega
      · have hn : n - 1 < 256 := by omega
        have := yellow_sound hr hg hn h2
        have m := anti (ll_range hb) (ll_range hn) (mono (show b ≤ n - 1 by omega))
        exact (this.trans m).trans (le_abs_self _)
  · rcases other_true h1 with h1 | h1
    · have : 256 ≤ n := Nat.le_of_ble_eq_true h1
      omega
    · have := blue_sound hr hg (by omega) h1
      have m := anti (ll_range (show n < 256 by omega)) (ll_range hb) (mono hbn)
      have m : yb (ll r) (ll g) (ll b) ≤ _ := m.trans this
      rw [le_abs]
      right
      linarith

end Opp

end Mcu.Lemmas
