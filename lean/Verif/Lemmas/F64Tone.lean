import Verif.Lemmas.F64Lab
import Verif.Lemmas.Planes

/-! Rounding to channels, and tones, in doubles. -/

namespace Mcu.Lemmas

open Mcu.Ieee Mcu ColorUtils MathUtils Real Props

variable {L : Libm}

/-- `round` then `as i64` for any double of moderate size. -/
theorem Ap.toI64_round_near {x : F64 L} {a δ : ℝ} (hx : Ap x a δ) (h : |a| + δ ≤ 900) :
    |(Fl.toI64 (Fl.round x) : ℝ) - a| ≤ 1 / 2 + δ := by
  obtain ⟨v, hv, hd⟩ := hx
  have hva : |v| ≤ 900 := by
    have := abs_add_le (v - a) a
    rw [sub_add_cancel] at this; linarith
  have hva' := abs_le.1 hva
  obtain ⟨n, hn⟩ : ∃ n : ℤ, (if 0 ≤ v then ⌊v + 1 / 2⌋ else ⌈v - 1 / 2⌉) = n := ⟨_, rfl⟩
  have hnv : |(n : ℝ) - v| ≤ 1 / 2 := by
    rw [← hn]
    split
    · have := Int.floor_le (v + 1 / 2)
      have := Int.lt_floor_add_one (v + 1 / 2)
      rw [abs_le]; constructor <;> linarith
    · have := Int.le_ceil (v - 1 / 2)
      have := Int.ceil_lt_add_one (v - 1 / 2)
      rw [abs_le]; constructor <;> linarith
  have hn' := abs_le.1 hnv
  have hn1 : n ≤ 1000 := by
    have : (n : ℝ) ≤ 1000 := by linarith
    exact_mod_cast this
  have hn2 : -1000 ≤ n := by
    have : ((-1000 : ℤ) : ℝ) ≤ n := by push_cast; linarith
    exact_mod_cast this
  have hi := is_toInteger (L := L) (fun v : ℝ => if 0 ≤ v then ⌊v + 1 / 2⌋ else ⌈v - 1 / 2⌉)
    (by norm_num) x hv.1 n (by rw [hv.2]; exact hn) (by rw [abs_le]; omega)
  have hi : Is (Fl.round x) ((n : ℤ) : ℝ) := hi
  have e : Fl.toI64 (Fl.round x) = n := by
    rw [hi.toI64, realTrunc_intCast]
    unfold satI64
    omega
  rw [e]
  calc |(n : ℝ) - a| = |(n - v) + (v - a)| := by congr 1; ring
    _ ≤ _ := abs_add_le _ _
    _ ≤ _ := by linarith

/-- Around their common breakpoint the two branches of the transfer function nearly agree. -/
theorem branches_near {q : ℝ} (h0 : |q - 0.0031308| ≤ 2 * ρ) :
    |q * 12.92 - (1.055 * q ^ (1.0 / 2.4 : ℝ) - 0.055)| ≤ 0.000003 := by
  have hρ : ρ = 1 / 10 ^ 12 := rfl
  rw [hρ, abs_le] at h0
  norm_num at h0
  have hq0 : 0 ≤ q := by linarith
  have h1 : 0.090473 ≤ q ^ (1.0 / 2.4 : ℝ) := by
    calc (0.090473 : ℝ) ≤ (0.00313079 : ℝ) ^ (1.0 / 2.4 : ℝ) := by
          rw [e124]; apply le_rpow_of_pow_le <;> norm_num
      _ ≤ _ := by apply rpow_le_rpow <;> norm_num; linarith
  have h2 : q ^ (1.0 / 2.4 : ℝ) ≤ 0.0904750 := by
    calc _ ≤ (0.00313081 : ℝ) ^ (1.0 / 2.4 : ℝ) := by
          apply rpow_le_rpow hq0 _ (by norm_num); norm_num; linarith
      _ ≤ _ := by rw [e124]; apply rpow_le_of_le_pow <;> norm_num
  rw [abs_le]
  norm_num at h1 h2 ⊢
  constructor <;> linarith

theorem encode_bounds {q : ℝ} (h0 : 0 ≤ q) (h1 : q ≤ 1) : 0 ≤ encode q ∧ encode q ≤ 1 := by
  constructor
  · by_cases h : q ≤ 0.0031308
    · unfold encode; rw [if_pos h]; positivity
    · have := encode_break h; norm_num at this; linarith
  · unfold encode
    split
    · next h => norm_num at h ⊢; linarith
    · have := rpow_le_one h0 h1 (show (0 : ℝ) ≤ 1.0 / 2.4 by norm_num)
      norm_num at this ⊢; linarith

/-- The channel computed for a linear value is a nearest one, up to 0.001. -/
theorem delinearized_level (hL : L.PowOk) {x : F64 L} {v : ℝ} (hv : Is x v) (h0 : 0 ≤ v) (h1 : v ≤ 100) :
    -0.501 ≤ (delinearized x : ℝ) - encode (v / 100) * 255 ∧ (delinearized x : ℝ) - encode (v / 100) * 255 ≤ 0.501 := by
  have hρ : ρ = 1 / 10 ^ 12 := rfl
  have hρ0 := ρ_pos
  have hq0 : 0 ≤ v / 100 := by positivity
  have hq1 : v / 100 ≤ 1 := by linarith
  have hn : Ap (x / 100.0) (v / 100) ρ :=
    (hv.ap.div ap100 (β := 100) (Q := 2) (by norm_num) (by norm_num) (by rw [abs_of_nonneg h0]; linarith)
      (by norm_num)).weaken (by norm_num)
  have hthr : Ap (0.0031308 : F64 L) 0.0031308 ρ := ap_lit rfl (by norm_num [abs_of_pos])
  obtain ⟨E0, E1⟩ := encode_bounds hq0 hq1
  -- the value that is rounded
  have key : Ap ((if x / 100.0 ≤ (0.0031308 : F64 L) then x / 100.0 * 12.92
      else 1.055 * Fl.powf (x / 100.0) (1.0 / 2.4) - 0.055) * 255.0) (encode (v / 100) * 255) 0.0009 := by
    have hE : |encode (v / 100)| ≤ 1 := by rw [abs_of_nonneg E0]; exact E1
    suffices h : Ap (if x / 100.0 ≤ (0.0031308 : F64 L) then x / 100.0 * 12.92
        else 1.055 * Fl.powf (x / 100.0) (1.0 / 2.4) - 0.055) (encode (v / 100)) 0.0000031 from
      (h.mul ap255 (A := 1) (B := 255) hE (by norm_num) (by norm_num)).weaken (by rw [hρ]; norm_num)
    by_cases hb : x / 100.0 ≤ (0.0031308 : F64 L)
    · rw [if_pos hb]
      have hb' : v / 100 ≤ 0.0031308 + 2 * ρ := by
        by_contra hc
        exact hn.not_le_of hthr (by linarith) hb
      have h12 : Ap (12.92 : F64 L) 12.92 ρ := ap_lit rfl (by norm_num [abs_of_pos])
      have m1 := (hn.mul h12 (A := 1) (B := 12.92) (by rw [abs_of_nonneg hq0]; exact hq1) (by norm_num [abs_of_pos])
        (by rw [hρ]; norm_num)).weaken (ε := 20 * ρ) (by rw [hρ]; norm_num)
      have hc : |v / 100 * 12.92 - encode (v / 100)| ≤ 0.000003 := by
        unfold encode
        split
        · rw [sub_self, abs_zero]; norm_num
        · next hne =>
          refine branches_near ?_
          rw [abs_le]; constructor <;> linarith
      exact (m1.shift hc).weaken (by rw [hρ]; norm_num)
    · rw [if_neg hb]
      have hb' : 0.0031308 - 2 * ρ ≤ v / 100 := by
        by_contra hc
        exact hb (hn.le_of hthr (by linarith))
      have h55 : Ap (0.055 : F64 L) 0.055 ρ := ap_lit rfl (by norm_num [abs_of_pos])
      have h1055 : Ap (1.055 : F64 L) 1.055 ρ := ap_lit rfl (by norm_num [abs_of_pos])
      have h24 : Ap (2.4 : F64 L) 2.4 ρ := ap_lit rfl (by norm_num [abs_of_pos])
      have hex : Ap (1.0 / 2.4 : F64 L) (1.0 / 2.4) (2 * ρ) := by
        have := (ap1 (L := L)).div h24 (β := 2.4) (Q := 1) (by norm_num [abs_of_pos]) (by unfold ρ; norm_num)
          (by norm_num) (by unfold ρ; norm_num)
        rw [show (1.0 : ℝ) / 2.4 = 1 / 2.4 by norm_num]
        exact this.weaken (by unfold ρ; norm_num)
      have hp := (hn.pow hL hex (m := 0.003) (W := 0.42) (by norm_num)
        (by rw [hρ] at hb' ⊢; norm_num at hb' ⊢; linarith) (by unfold ρ; norm_num; linarith)
        (by unfold ρ; norm_num) (by unfold ρ; norm_num) (by norm_num)).weaken (ε := 2000 * ρ) (by unfold ρ; norm_num)
      have hP : |(v / 100) ^ (1.0 / 2.4 : ℝ)| ≤ 1 := by
        rw [abs_of_nonneg (rpow_nonneg hq0 _)]
        exact rpow_le_one hq0 hq1 (by norm_num)
      have m1 := (h1055.mul hp (A := 1.055) (B := 1) (by norm_num [abs_of_pos]) hP
        (by unfold ρ; norm_num)).weaken (ε := 3000 * ρ) (by unfold ρ; norm_num)
      have m2 := (m1.sub h55 (by
        have hP' := abs_le.1 hP
        have : |1.055 * (v / 100) ^ (1.0 / 2.4 : ℝ) - 0.055| ≤ 2 := by
          generalize (v / 100) ^ (1.0 / 2.4 : ℝ) = w at *
          rw [abs_le]; norm_num; constructor <;> linarith
        rw [hρ]; linarith)).weaken (ε := 4000 * ρ) (by unfold ρ; norm_num)
      have hc : |1.055 * (v / 100) ^ (1.0 / 2.4 : ℝ) - 0.055 - encode (v / 100)| ≤ 0.000003 := by
        unfold encode
        split
        · next hle =>
          rw [abs_sub_comm]
          refine branches_near ?_
          rw [abs_le]; constructor <;> linarith
        · rw [sub_self, abs_zero]; norm_num
      exact (m2.shift hc).weaken (by rw [hρ]; norm_num)
  have near := key.toI64_round_near (by
    rw [abs_of_nonneg (by positivity)]; norm_num; linarith)
  simp only [delinearized]
  generalize Fl.toI64 (Fl.round ((if x / 100.0 ≤ (0.0031308 : F64 L) then x / 100.0 * 12.92
      else 1.055 * Fl.powf (x / 100.0) (1.0 / 2.4) - 0.055) * 255.0)) = n at *
  have near' := abs_le.1 near
  norm_num at near'
  have n0 : 0 ≤ n := by
    have : ((-1 : ℤ) : ℝ) < n := by push_cast; linarith
    have : -1 < n := by exact_mod_cast this
    omega
  have n1 : n ≤ 255 := by
    have : (n : ℝ) < ((256 : ℤ) : ℝ) := by push_cast; linarith
    have : n < 256 := by exact_mod_cast this
    omega
  have e : clampInt 0 255 n = n := by
    unfold clampInt
    split <;> (try split) <;> omega
  rw [e]
  norm_num
  constructor <;> linarith

/-! ### Tones -/

theorem ap_lstarFromY (hL : L.PowOk) {x : F64 L} {y δ : ℝ} (hx : Ap x y δ) (h0 : -5 ≤ y) (h1 : y ≤ 100.01)
    (hδ : δ ≤ 1 / 10 ^ 4) : Ap (lstarFromY x) (lstarFromY y) (117 * δ + 2 / 10 ^ 7) := by
  have hρ : ρ = 1 / 10 ^ 12 := rfl
  have hδ0 := hx.nonneg
  have hya : |y| ≤ 200 := by rw [abs_le]; norm_num at h0 h1; constructor <;> linarith
  have d := (hx.div ap100 (β := 100) (Q := 2) (by norm_num) (by norm_num) (by linarith)
    (by norm_num at hδ ⊢; linarith)).weaken (ε := δ / 100 + ρ) (by norm_num)
  have f := (ap_labF hL d (by norm_num at h0 ⊢; linarith) (by norm_num at h1 ⊢; linarith)
    (by rw [hρ]; norm_num at hδ ⊢; linarith)).weaken (ε := δ + 11 / 10 ^ 10) (by rw [hρ]; norm_num; linarith)
  rw [lstarFromY_eq]
  have hb : |labF (y / 100)| ≤ 1.01 := by
    have a := labF_strictMono.monotone (show (-0.05 : ℝ) ≤ y / 100 by norm_num at h0 ⊢; linarith)
    have b := labF_strictMono.monotone (show y / 100 ≤ (1.001 : ℝ) by norm_num at h1 ⊢; linarith)
    rw [labF_of_le (t := -0.05) (by norm_num)] at a
    have c := (labF_bounds (t := 1.001) (by norm_num) le_rfl).2
    rw [abs_le]; norm_num at a c ⊢; constructor <;> linarith
  have m := (f.mul ap116 (A := 1.01) (B := 116) hb (by norm_num) (by norm_num at hδ ⊢; linarith)).weaken
    (ε := 116 * δ + 13 / 10 ^ 8) (by rw [hρ]; norm_num; linarith)
  have hb' := abs_le.1 hb
  exact (m.sub ap16 (by
    have : |labF (y / 100) * 116 - 16| ≤ 200 := by rw [abs_le]; norm_num at hb' ⊢; constructor <;> linarith
    norm_num at hδ ⊢; linarith)).weaken (by rw [hρ]; norm_num; linarith)

theorem ap_yFromLstar {x : F64 L} {l δ : ℝ} (hx : Ap x l δ) (h0 : -1 ≤ l) (h1 : l ≤ 101) (hδ : δ ≤ 1 / 100) :
    Ap (yFromLstar x) (yFromLstar l) (4 * δ + 2 / 10 ^ 8) := by
  have hρ : ρ = 1 / 10 ^ 12 := rfl
  have hδ0 := hx.nonneg
  have a := (hx.add ap16 (by
    have : |l + 16| ≤ 200 := by rw [abs_le]; constructor <;> linarith
    norm_num at hδ ⊢; linarith)).weaken (ε := δ + ρ) (by linarith)
  have d := (a.div ap116 (β := 116) (Q := 2) (by norm_num) (by norm_num) (by rw [abs_le]; constructor <;> linarith)
    (by rw [hρ]; norm_num at hδ ⊢; linarith)).weaken (ε := δ / 116 + 2 * ρ) (by rw [hρ]; norm_num; linarith)
  have f := (ap_labInvf d (by linarith) (by norm_num; linarith) (by rw [hρ]; norm_num at hδ ⊢; linarith)).weaken
    (ε := 4 * δ / 116 + 12 / 10 ^ 11) (by rw [hρ]; norm_num; linarith)
  rw [yFromLstar_eq]
  have hb : |labInvf ((l + 16) / 116)| ≤ 1.1 := by
    have p := labInvf_strictMono.monotone (show (0 : ℝ) ≤ (l + 16) / 116 by linarith)
    have q := labInvf_strictMono.monotone (show (l + 16) / 116 ≤ (117 / 116 : ℝ) by linarith)
    rw [labInvf_of_le (f := 0) (by norm_num)] at p
    rw [labInvf_of_gt (f := 117 / 116) (by norm_num)] at q
    rw [abs_le]; norm_num at p q ⊢; constructor <;> linarith
  exact ((ap100 (L := L)).mul f (A := 100) (B := 1.1) (by norm_num) hb (by norm_num at hδ ⊢; linarith)).weaken
    (by rw [hρ]; norm_num; linarith)

theorem ap_lstarFromArgb (hL : L.PowOk) (argb : Int) :
    Ap (lstarFromArgb argb : F64 L) (lstarFromArgb argb : ℝ) (2 / 10 ^ 5) := by
  have hρ : ρ = 1 / 10 ^ 12 := rfl
  have hy := (ap_xyz hL argb).2.1
  have hr := luminance_range argb
  obtain ⟨f, f0, f1⟩ := ap_curve hL hy ((ap100 (L := L)).weaken ρ_pos.le) (by norm_num) hr.1 (by norm_num; linarith)
    (by norm_num)
  have e : (lstarFromArgb argb : ℝ) = 116 * labF ((xyzFromArgb argb : Vec3 ℝ).x1 / 100) - 16 := by
    simp only [lstarFromArgb]; norm_num
  rw [e]
  simp only [lstarFromArgb]
  generalize labF ((xyzFromArgb argb : Vec3 ℝ).x1 / 100) = A at *
  norm_num at f1
  have m := ((ap116 (L := L)).mul f (A := 116) (B := 1.001) (by norm_num)
    (by rw [abs_of_nonneg f0]; norm_num; linarith) (by norm_num)).weaken (ε := 18 / 10 ^ 6) (by rw [hρ]; norm_num)
  exact (m.sub ap16 (by
    have : |116 * A - 16| ≤ 110 := by rw [abs_le]; constructor <;> linarith
    norm_num; linarith)).weaken (by rw [hρ]; norm_num)

end Mcu.Lemmas
