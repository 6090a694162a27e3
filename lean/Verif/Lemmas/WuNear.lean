import Verif.Lemmas.WuExact

/-! The cut the Wu quantizer chooses in binary64. -/

namespace Mcu.QuantizerWu

open Mcu.Spec Mcu.Props Mcu.Ieee Mcu.Lemmas ColorUtils

section
variable {F : Type} [Fl F]

/-- The scores of the separating positions of a box have the real values `s`. -/
structure Scored (val : F → ℝ → Prop) (t : Tables F) (c : Box) (s : Direction → Int → ℝ) : Prop where
  zero : val 0.0 0
  lt : ∀ {v w : F} {a b : ℝ}, val v a → val w b → (v < w ↔ a < b)
  le : ∀ {v w : F} {a b : ℝ}, val v a → val w b → (v ≤ w ↔ a ≤ b)
  score : ∀ d p, lo c d < p → p < hi c d → volume (lower c d p) t.weights ≠ 0 → volume (upper c d p) t.weights ≠ 0 →
    val (scoreF t c d p) (s d p)

variable {val : F → ℝ → Prop} {t : Tables F} {c : Box} {s : Direction → Int → ℝ}

/-- A state of the search: nothing found, or a position and its score. -/
def Found (val : F → ℝ → Prop) (t : Tables F) (c : Box) (s : Direction → Int → ℝ) (d : Direction) (m : MaximizeResult F)
    (v : ℝ) : Prop :=
  val m.maximum v ∧ ((m.cutLocation = -1 ∧ v = 0) ∨
    (lo c d < m.cutLocation ∧ m.cutLocation < hi c d ∧ volume (lower c d m.cutLocation) t.weights ≠ 0 ∧
      volume (upper c d m.cutLocation) t.weights ≠ 0 ∧ v = s d m.cutLocation ∧ 0 < v))

omit [Fl F] in
theorem Found.nonneg {d : Direction} {m : MaximizeResult F} {v : ℝ} (h : Found val t c s d m v) : 0 ≤ v := by
  rcases h.2 with ⟨-, h⟩ | ⟨-, -, -, -, -, h⟩
  · exact h.ge
  · exact h.le

theorem step_found (sc : Scored val t c s) {d : Direction} {m : MaximizeResult F} {v : ℝ} (h : Found val t c s d m v)
    {i : Int} (hi : lo c d < i ∧ i < hi c d) :
    ∃ v', Found val t c s d (maximizeStep t c d (volume c t.momentsR) (volume c t.momentsG) (volume c t.momentsB)
      (volume c t.weights) m i) v' ∧ v ≤ v' ∧
      (volume (lower c d i) t.weights ≠ 0 → volume (upper c d i) t.weights ≠ 0 → s d i ≤ v') := by
  simp only [maximizeStep, bottom_top, ← volume_upper]
  by_cases h1 : volume (lower c d i) t.weights = 0
  · exact ⟨v, by rw [if_pos h1]; exact h, le_refl _, fun hn => absurd h1 hn⟩
  rw [if_neg h1]
  by_cases h2 : volume (upper c d i) t.weights = 0
  · exact ⟨v, by rw [if_pos h2]; exact h, le_refl _, fun _ hn => absurd h2 hn⟩
  rw [if_neg h2]
  have hs := sc.score d i hi.1 hi.2 h1 h2
  unfold scoreF at hs
  have hlt := sc.lt h.1 hs
  by_cases h3 : v < s d i
  · refine ⟨s d i, ?_, h3.le, fun _ _ => le_refl _⟩
    rw [if_pos (hlt.2 h3)]
    exact ⟨hs, Or.inr ⟨hi.1, hi.2, h1, h2, rfl, h.nonneg.trans_lt h3⟩⟩
  · refine ⟨v, ?_, le_refl _, fun _ _ => not_lt.1 h3⟩
    rw [if_neg (fun hc => h3 (hlt.1 hc))]
    exact h

theorem maximize_found (sc : Scored val t c s) (d : Direction) :
    ∃ v, Found val t c s d (maximize t c d (lo c d + 1) (hi c d) (volume c t.momentsR) (volume c t.momentsG)
      (volume c t.momentsB) (volume c t.weights)) v ∧
      ∀ i, lo c d < i → i < hi c d → volume (lower c d i) t.weights ≠ 0 → volume (upper c d i) t.weights ≠ 0 → s d i ≤ v := by
  have key : ∀ (l : List Int) (m : MaximizeResult F) (v : ℝ), (∀ i ∈ l, lo c d < i ∧ i < hi c d) →
      Found val t c s d m v →
      ∃ v', Found val t c s d (l.foldl (maximizeStep t c d (volume c t.momentsR) (volume c t.momentsG)
        (volume c t.momentsB) (volume c t.weights)) m) v' ∧ v ≤ v' ∧
        ∀ i ∈ l, volume (lower c d i) t.weights ≠ 0 → volume (upper c d i) t.weights ≠ 0 → s d i ≤ v' := by
    intro l
    induction l with
    | nil => intro m v _ h; exact ⟨v, h, le_refl _, by simp⟩
    | cons x rest ih =>
      intro m v hl h
      obtain ⟨v1, f1, l1, b1⟩ := step_found sc h (hl x List.mem_cons_self)
      obtain ⟨v2, f2, l2, b2⟩ := ih _ v1 (fun i hi => hl i (List.mem_cons_of_mem _ hi)) f1
      refine ⟨v2, f2, l1.trans l2, ?_⟩
      intro i hi n1 n2
      rcases List.mem_cons.1 hi with rfl | hi
      · exact (b1 n1 n2).trans l2
      · exact b2 i hi n1 n2
  obtain ⟨v, f, -, b⟩ := key (rangeI (lo c d + 1) (hi c d)) ⟨-1, 0.0⟩ 0
    (fun i hi => by have := mem_rangeI hi; omega) ⟨sc.zero, Or.inl ⟨rfl, rfl⟩⟩
  exact ⟨v, f, fun i h1 h2 n1 n2 => b i (mem_rangeI_iff.2 ⟨by omega, h2⟩) n1 n2⟩

/-- The chosen cut has the largest value. -/
theorem cut_scored (sc : Scored val t c s) {c1 c2 : Box} (h : cut t c = some (c1, c2)) :
    ∃ d p, lo c d < p ∧ p < hi c d ∧ c1 = withVol (lower c d p) ∧ c2 = withVol (upper c d p) ∧
      volume (lower c d p) t.weights ≠ 0 ∧ volume (upper c d p) t.weights ≠ 0 ∧
      ∀ d' p', lo c d' < p' → p' < hi c d' → volume (lower c d' p') t.weights ≠ 0 →
        volume (upper c d' p') t.weights ≠ 0 → s d' p' ≤ s d p := by
  simp only [cut] at h
  obtain ⟨vr, fr, br⟩ := maximize_found sc .red
  obtain ⟨vg, fg, bg⟩ := maximize_found sc .green
  obtain ⟨vb, fb, bb⟩ := maximize_found sc .blue
  simp only [lo, hi] at fr fg fb
  set rr := maximize t c .red (c.r0 + 1) c.r1 (volume c t.momentsR) (volume c t.momentsG)
    (volume c t.momentsB) (volume c t.weights)
  set gr := maximize t c .green (c.g0 + 1) c.g1 (volume c t.momentsR) (volume c t.momentsG)
    (volume c t.momentsB) (volume c t.weights)
  set bl := maximize t c .blue (c.b0 + 1) c.b1 (volume c t.momentsR) (volume c t.momentsG)
    (volume c t.momentsB) (volume c t.weights)
  have all : ∀ M : ℝ, vr ≤ M → vg ≤ M → vb ≤ M → ∀ d' p', lo c d' < p' → p' < hi c d' →
      volume (lower c d' p') t.weights ≠ 0 → volume (upper c d' p') t.weights ≠ 0 → s d' p' ≤ M := by
    intro M h1 h2 h3 d' p' hl hh n1 n2
    cases d'
    · exact (br p' hl hh n1 n2).trans h1
    · exact (bg p' hl hh n1 n2).trans h2
    · exact (bb p' hl hh n1 n2).trans h3
  have nr := fr.nonneg
  have ng := fg.nonneg
  have nb := fb.nonneg
  have lgr : gr.maximum ≤ rr.maximum ↔ vg ≤ vr := sc.le fg.1 fr.1
  have lbr : bl.maximum ≤ rr.maximum ↔ vb ≤ vr := sc.le fb.1 fr.1
  have lrg : rr.maximum ≤ gr.maximum ↔ vr ≤ vg := sc.le fr.1 fg.1
  have lbg : bl.maximum ≤ gr.maximum ↔ vb ≤ vg := sc.le fb.1 fg.1
  simp only [ge_iff_le, lgr, lbr, lrg, lbg] at h
  split_ifs at h with h1 h2 h3
  · rcases fr.2 with ⟨e, -⟩ | ⟨l1, l2, l3, l4, l5, -⟩
    · exact absurd (by rw [e]; norm_num) h2
    · obtain ⟨rfl, rfl⟩ := Prod.mk.inj (Option.some.inj h)
      exact ⟨.red, rr.cutLocation, l1, l2, rfl, rfl, l3, l4, all _ l5.le (l5 ▸ h1.1) (l5 ▸ h1.2)⟩
  · rcases fg.2 with ⟨-, e⟩ | ⟨l1, l2, l3, l4, l5, -⟩
    · exact absurd ⟨by linarith, by linarith [h3.2]⟩ h1
    · obtain ⟨rfl, rfl⟩ := Prod.mk.inj (Option.some.inj h)
      exact ⟨.green, gr.cutLocation, l1, l2, rfl, rfl, l3, l4, all _ (l5 ▸ h3.1) l5.le (l5 ▸ h3.2)⟩
  · have hb : vr < vb ∧ vg < vb := by
      constructor
      · by_contra hc
        rcases le_total vg vr with hh | hh
        · exact h1 ⟨hh, not_lt.1 hc⟩
        · exact h3 ⟨hh, (not_lt.1 hc).trans hh⟩
      · by_contra hc
        rcases le_total vg vr with hh | hh
        · exact h1 ⟨hh, (not_lt.1 hc).trans hh⟩
        · exact h3 ⟨hh, not_lt.1 hc⟩
    rcases fb.2 with ⟨-, e⟩ | ⟨l1, l2, l3, l4, l5, -⟩
    · linarith [hb.1]
    · obtain ⟨rfl, rfl⟩ := Prod.mk.inj (Option.some.inj h)
      exact ⟨.blue, bl.cutLocation, l1, l2, rfl, rfl, l3, l4, all _ (l5 ▸ hb.1.le) (l5 ▸ hb.2.le) l5.le⟩

end

/-! ### Rounding errors of the score -/

/-- Rounding a number that is zero or not tiny. -/
theorem rnd_rel {v : ℝ} (h : v = 0 ∨ 2 ^ (-100 : ℤ) ≤ v) : |rnd v - v| ≤ 2 ^ (-52 : ℤ) * v := by
  rcases h with rfl | h
  · rw [rnd_zero]; norm_num
  · have h0 : 0 < v := (two_zpow_pos _).trans_le h
    have := rnd_error v
    rw [abs_of_pos h0] at this
    refine this.trans ?_
    have e : (2:ℝ) ^ (-1075:ℤ) ≤ 2 ^ (-153:ℤ) := zpow_le_zpow_right₀ (by norm_num) (by norm_num)
    have e2 : (2:ℝ) ^ (-153:ℤ) = 2 ^ (-53:ℤ) * 2 ^ (-100:ℤ) := by rw [← zpow_add₀ (by norm_num)]; norm_num
    have e3 : (2:ℝ) ^ (-52:ℤ) = 2 ^ (-53:ℤ) + 2 ^ (-53:ℤ) := by
      rw [show (-52:ℤ) = -53 + 1 by norm_num, zpow_add₀ (by norm_num)]; norm_num
    have p53 : (0:ℝ) < 2 ^ (-53:ℤ) := two_zpow_pos _
    rw [e3]
    nlinarith

theorem two_steps {u q q' r : ℝ} (h0 : 0 ≤ u) (h1 : u ≤ 1 / 2) (hq : 0 ≤ q) (a : |r - q'| ≤ u * q') (b : |q' - q| ≤ u * q) :
    |r - q| ≤ 3 * u * q := by
  rw [abs_le] at *
  have k : u * q' ≤ u * (q + u * q) := mul_le_mul_of_nonneg_left (by linarith) h0
  have k2 : u * u * q ≤ 1 / 2 * u * q := by
    have := mul_nonneg h0 hq
    nlinarith
  have k3 : 0 ≤ u * q := mul_nonneg h0 hq
  constructor <;> nlinarith

theorem final_bound {u T x y a b : ℝ} (hu : 0 < u) (su : u ≤ 1 / 4) (hx : 0 ≤ x) (hy : 0 ≤ y) (hT : 0 ≤ T)
    (e1 : |a - (T - x)| ≤ u * (T - x) + u * u * (T - x)) (e2 : |b - (T - y)| ≤ u * (T - y) + u * u * (T - y))
    (hb : b ≤ a) : x ≤ y + 4 * u * T := by
  rw [abs_le] at e1 e2
  have k1 : (T - y) - (u + u * u) * (T - y) ≤ (T - x) + (u + u * u) * (T - x) := by linarith [e1.2, e2.1]
  have hv : 0 ≤ u + u * u := by positivity
  have k2 : u + u * u ≤ 2 * u := by nlinarith
  have k3 : (u + u * u) * T ≤ 2 * u * T := mul_le_mul_of_nonneg_right k2 hT
  have k4 := mul_nonneg hv hx
  have k5 := mul_nonneg hv hy
  linarith

/-- The value of a quotient. -/
noncomputable def quotientVal (a b : ℝ) : ℝ := rnd (rnd a / b)

theorem quotient_near {a b : ℤ} (ha : 0 ≤ a) (hb : 1 ≤ b) (hb' : b ≤ 2 ^ 40) :
    (quotientVal a b = 0 ∨ 2 ^ (-53 : ℤ) ≤ quotientVal a b) ∧ |quotientVal a b - a / b| ≤ 3 * 2 ^ (-52 : ℤ) * (a / b) := by
  have hbr : (1:ℝ) ≤ b := by exact_mod_cast hb
  have hbr' : (b:ℝ) ≤ 2 ^ 40 := by exact_mod_cast hb'
  have p52 : (0:ℝ) < 2 ^ (-52:ℤ) := two_zpow_pos _
  have s52 : (2:ℝ) ^ (-52:ℤ) ≤ 1 / 2 := by rw [zpow_neg]; norm_num
  rcases ha.lt_or_eq with h | h
  · have har : (1:ℝ) ≤ a := by exact_mod_cast h
    have r1 : |rnd (a:ℝ) - a| ≤ 2 ^ (-52:ℤ) * a :=
      rnd_rel (Or.inr (le_trans (zpow_le_one_of_nonpos₀ (by norm_num) (by norm_num)) har))
    have hone : (1:ℝ) ≤ rnd (a:ℝ) := by
      have : Rep ((1:ℤ):ℝ) := rep_int (by norm_num)
      have := this.le_rnd (v := (a:ℝ)) (by exact_mod_cast h)
      simpa using this
    have hq : (2:ℝ) ^ (-53:ℤ) ≤ rnd (a:ℝ) / b := by
      rw [le_div_iff₀ (by linarith)]
      calc (2:ℝ) ^ (-53:ℤ) * b ≤ 2 ^ (-53:ℤ) * 2 ^ 40 := by gcongr
        _ ≤ 1 := by rw [zpow_neg]; norm_num
        _ ≤ _ := hone
    have r53 : Rep ((2:ℝ) ^ (-53:ℤ)) := rep_zpow (by norm_num)
    refine ⟨Or.inr (r53.le_rnd hq), ?_⟩
    have r2 : |rnd (rnd (a:ℝ) / b) - rnd (a:ℝ) / b| ≤ 2 ^ (-52:ℤ) * (rnd (a:ℝ) / b) :=
      rnd_rel (Or.inr (le_trans (zpow_le_zpow_right₀ (by norm_num) (by norm_num)) hq))
    have r3 : |rnd (a:ℝ) / b - a / b| ≤ 2 ^ (-52:ℤ) * (a / b) := by
      rw [← sub_div, abs_div, abs_of_pos (by linarith : (0:ℝ) < b), ← mul_div_assoc]
      gcongr
    unfold quotientVal
    set q := (a:ℝ) / b
    set q' := rnd (a:ℝ) / b
    have hq0 : 0 ≤ q := div_nonneg (by linarith) (by linarith)
    exact two_steps p52.le s52 hq0 r2 r3
  · subst h
    have : quotientVal ((0:ℤ):ℝ) b = 0 := by
      unfold quotientVal
      rw [Int.cast_zero, rnd_zero, zero_div, rnd_zero]
    rw [this]
    norm_num

theorem total_near {x y x' y' : ℝ} (hx' : x' = 0 ∨ 2 ^ (-53 : ℤ) ≤ x') (hy' : y' = 0 ∨ 2 ^ (-53 : ℤ) ≤ y')
    (hx0 : 0 ≤ x) (hy0 : 0 ≤ y) (hx : |x' - x| ≤ 3 * 2 ^ (-52 : ℤ) * x) (hy : |y' - y| ≤ 3 * 2 ^ (-52 : ℤ) * y) :
    |rnd (x' + y') - (x + y)| ≤ 2 ^ (-50 : ℤ) * (x + y) + 2 ^ (-100 : ℤ) * (x + y) := by
  have p53 : (0:ℝ) < 2 ^ (-53:ℤ) := two_zpow_pos _
  have h : x' + y' = 0 ∨ 2 ^ (-100 : ℤ) ≤ x' + y' := by
    have : (2:ℝ) ^ (-100:ℤ) ≤ 2 ^ (-53:ℤ) := zpow_le_zpow_right₀ (by norm_num) (by norm_num)
    rcases hx' with rfl | h1 <;> rcases hy' with rfl | h2
    · left; norm_num
    · right; linarith
    · right; linarith
    · right; linarith
  have r := rnd_rel h
  have e52 : (2:ℝ) ^ (-50:ℤ) = 4 * 2 ^ (-52:ℤ) := by
    rw [show (-50:ℤ) = -52 + 2 by norm_num, zpow_add₀ (by norm_num)]; norm_num
  have e100 : (2:ℝ) ^ (-100:ℤ) = 16 * (2 ^ (-52:ℤ) * 2 ^ (-52:ℤ)) := by
    rw [← zpow_add₀ (by norm_num), show (-100:ℤ) = (-52 + -52) + 4 by norm_num, zpow_add₀ (by norm_num) _ 4]; norm_num
  rw [e52, e100]
  set u : ℝ := 2 ^ (-52:ℤ)
  have hu : 0 < u := two_zpow_pos _
  rw [abs_le] at *
  have : 0 ≤ u * u * (x + y) := by positivity
  constructor <;> nlinarith

/-! ### The score in binary64 -/

variable {L : Libm}

/-- The value of the score of a position in binary64. -/
noncomputable def scoreVal (t : Tables (F64 L)) (c : Box) (d : Direction) (p : Int) : ℝ :=
  rnd (quotientVal ((volume (lower c d p) t.momentsR * volume (lower c d p) t.momentsR +
      volume (lower c d p) t.momentsG * volume (lower c d p) t.momentsG +
      volume (lower c d p) t.momentsB * volume (lower c d p) t.momentsB : Int) : ℝ) (volume (lower c d p) t.weights) +
    quotientVal ((volume (upper c d p) t.momentsR * volume (upper c d p) t.momentsR +
      volume (upper c d p) t.momentsG * volume (upper c d p) t.momentsG +
      volume (upper c d p) t.momentsB * volume (upper c d p) t.momentsB : Int) : ℝ) (volume (upper c d p) t.weights))

theorem is_quotient {a b : ℤ} (ha : 0 ≤ a) (ha' : a ≤ 2 ^ 100) (hb : 1 ≤ b) (hb' : b ≤ 2 ^ 53) :
    Is (Fl.ofInt a / Fl.ofInt b : F64 L) (quotientVal a b) ∧ 0 ≤ quotientVal a b ∧ quotientVal a b ≤ 2 ^ 100 := by
  have r100 : Rep ((2:ℝ) ^ (100:ℤ)) := rep_zpow (by norm_num)
  have e100 : (2:ℝ) ^ (100:ℤ) = 2 ^ 100 := by norm_num
  have big : ∀ v : ℝ, 0 ≤ v → v ≤ 2 ^ 100 → |rnd v| < 2 ^ 1024 := by
    intro v h0 h1
    rw [abs_of_nonneg (rnd_nonneg h0)]
    have := r100.rnd_le (h1.trans e100.ge)
    rw [e100] at this
    exact this.trans_lt (pow_lt_pow_right₀ (by norm_num) (by norm_num))
  have har : (0:ℝ) ≤ a := by exact_mod_cast ha
  have har' : (a:ℝ) ≤ 2 ^ 100 := by exact_mod_cast ha'
  have hbr : (1:ℝ) ≤ b := by exact_mod_cast hb
  have i1 : Is (Fl.ofInt a : F64 L) (rnd (a:ℝ)) := is_ofReal false (big _ har har')
  have i2 : Is (Fl.ofInt b : F64 L) (b : ℝ) := is_ofInt (by rw [abs_of_nonneg (by omega)]; exact hb')
  have ra0 := rnd_nonneg har
  have ra1 : rnd (a:ℝ) ≤ 2 ^ 100 := by rw [← e100]; exact r100.rnd_le (by rw [e100]; exact har')
  have q0 : 0 ≤ rnd (a:ℝ) / b := div_nonneg ra0 (by linarith)
  have q1 : rnd (a:ℝ) / b ≤ 2 ^ 100 := (div_le_self ra0 hbr).trans ra1
  refine ⟨i1.div i2 (by linarith) (big _ q0 q1), rnd_nonneg q0, ?_⟩
  rw [← e100]; exact r100.rnd_le (by rw [e100]; exact q1)

theorem is_total {x y : F64 L} {v w : ℝ} (hx : Is x v) (hy : Is y w) (hv : 0 ≤ v ∧ v ≤ 2 ^ 100)
    (hw : 0 ≤ w ∧ w ≤ 2 ^ 100) : Is (x + y) (rnd (v + w)) := by
  have r101 : Rep ((2:ℝ) ^ (101:ℤ)) := rep_zpow (by norm_num)
  have e101 : (2:ℝ) ^ (101:ℤ) = 2 ^ 101 := by norm_num
  refine hx.add hy ?_
  rw [abs_of_nonneg (rnd_nonneg (by linarith))]
  have hle : v + w ≤ 2 ^ (101:ℤ) := by rw [e101]; linarith [hv.2, hw.2, show (2:ℝ) ^ 101 = 2 ^ 100 + 2 ^ 100 by norm_num]
  have := r101.rnd_le hle
  rw [e101] at this
  exact this.trans_lt (pow_lt_pow_right₀ (by norm_num) (by norm_num))

/-- The squares of the totals of a box are small. -/
theorem squares_small {pixels : List Int} (hN : opaqueCount pixels ≤ 10 ^ 10) (c : Box) :
    0 ≤ pixelTotal redFromArgb pixels c * pixelTotal redFromArgb pixels c +
      pixelTotal greenFromArgb pixels c * pixelTotal greenFromArgb pixels c +
      pixelTotal blueFromArgb pixels c * pixelTotal blueFromArgb pixels c ∧
    pixelTotal redFromArgb pixels c * pixelTotal redFromArgb pixels c +
      pixelTotal greenFromArgb pixels c * pixelTotal greenFromArgb pixels c +
      pixelTotal blueFromArgb pixels c * pixelTotal blueFromArgb pixels c ≤ 2 ^ 100 := by
  obtain ⟨-, t1, ⟨r0, r1⟩, ⟨g0, g1⟩, ⟨u0, u1⟩⟩ := totals_small hN c
  have sq : ∀ x : Int, 0 ≤ x → x ≤ 255 * 10 ^ 10 → 0 ≤ x * x ∧ x * x ≤ (255 * 10 ^ 10) * (255 * 10 ^ 10) :=
    fun x h0 h1 => ⟨mul_nonneg h0 h0, mul_le_mul h1 h1 h0 (by norm_num)⟩
  have q1 := sq _ r0 r1
  have q2 := sq _ g0 g1
  have q3 := sq _ u0 u1
  omega

theorem scored_binary64 {pixels : List Int} {entries : List (Int × Int)} (h : CountsOf pixels entries)
    (hN : opaqueCount pixels ≤ 10 ^ 10) {c : Box} (hc : Proper c) :
    Scored (F := F64 L) Is (tablesOf (F64 L) entries) c (scoreVal (tablesOf (F64 L) entries) c) where
  zero := by
    have : Is (0.0 : F64 L) ((0 : Int) : ℝ) := is_lit_int (by norm_num) (by norm_num)
    simpa using this
  lt hv hw := hv.lt_iff hw
  le hv hw := hv.le_iff hw
  score d p h1 h2 n1 n2 := by
    obtain ⟨p1, p2⟩ := proper_parts hc h1 h2
    obtain ⟨a1, a2, a3, a4⟩ := c45_volume (F := F64 L) pixels entries h _ p1
    obtain ⟨b1, b2, b3, b4⟩ := c45_volume (F := F64 L) pixels entries h _ p2
    rw [weights_ne h p1, ← pixelCount_pos] at n1
    rw [weights_ne h p2, ← pixelCount_pos] at n2
    have t1 := (totals_small hN (lower c d p)).2.1
    have t2 := (totals_small hN (upper c d p)).2.1
    obtain ⟨s1, s2⟩ := squares_small hN (lower c d p)
    obtain ⟨s3, s4⟩ := squares_small hN (upper c d p)
    unfold scoreF scoreVal tablesOf
    rw [a1, a2, a3, a4, b1, b2, b3, b4]
    obtain ⟨i1, l1, u1⟩ := is_quotient (L := L) s1 s2 (b := pixelCount pixels (lower c d p)) (by omega) (by omega)
    obtain ⟨i2, l2, u2⟩ := is_quotient (L := L) s3 s4 (b := pixelCount pixels (upper c d p)) (by omega) (by omega)
    exact is_total i1 i2 ⟨l1, u1⟩ ⟨l2, u2⟩

/-- How far the score in binary64 is from the sum of squares less the total spread. -/
theorem scoreVal_near {pixels : List Int} {entries : List (Int × Int)} (h : CountsOf pixels entries)
    (hN : opaqueCount pixels ≤ 10 ^ 10) {c : Box} (hc : Proper c) {d : Direction} {p : Int} (h1 : lo c d < p)
    (h2 : p < hi c d) (n1 : pixelsIn pixels (lower c d p) ≠ []) (n2 : pixelsIn pixels (upper c d p) ≠ []) :
    let e := (pixelTotal squared pixels c : ℝ) -
      (spread (pixelsIn pixels (lower c d p)) + spread (pixelsIn pixels (upper c d p)))
    |scoreVal (tablesOf (F64 L) entries) c d p - e| ≤ 2 ^ (-50 : ℤ) * e + 2 ^ (-100 : ℤ) * e := by
  intro e
  obtain ⟨p1, p2⟩ := proper_parts hc h1 h2
  obtain ⟨a1, a2, a3, a4⟩ := c45_volume (F := F64 L) pixels entries h _ p1
  obtain ⟨b1, b2, b3, b4⟩ := c45_volume (F := F64 L) pixels entries h _ p2
  rw [← pixelCount_pos] at n1 n2
  have t1 := (totals_small hN (lower c d p)).2.1
  have t2 := (totals_small hN (upper c d p)).2.1
  obtain ⟨s1, -⟩ := squares_small hN (lower c d p)
  obtain ⟨s3, -⟩ := squares_small hN (upper c d p)
  obtain ⟨q1, q2⟩ := quotient_near s1 (b := pixelCount pixels (lower c d p)) (by omega) (by omega)
  obtain ⟨q3, q4⟩ := quotient_near s3 (b := pixelCount pixels (upper c d p)) (by omega) (by omega)
  have hn1 : (0:ℝ) < pixelCount pixels (lower c d p) := by exact_mod_cast n1
  have hn2 : (0:ℝ) < pixelCount pixels (upper c d p) := by exact_mod_cast n2
  have hs1 := Int.cast_nonneg (R := ℝ) s1
  have hs3 := Int.cast_nonneg (R := ℝ) s3
  have key := total_near q1 q3 (div_nonneg hs1 hn1.le) (div_nonneg hs3 hn2.le) q2 q4
  have hs : (pixelTotal squared pixels (lower c d p) : ℝ) + pixelTotal squared pixels (upper c d p) =
      pixelTotal squared pixels c := by exact_mod_cast pixelTotal_split squared pixels c d p ⟨h1, h2⟩
  have he : e = ((pixelTotal redFromArgb pixels (lower c d p) * pixelTotal redFromArgb pixels (lower c d p) +
      pixelTotal greenFromArgb pixels (lower c d p) * pixelTotal greenFromArgb pixels (lower c d p) +
      pixelTotal blueFromArgb pixels (lower c d p) * pixelTotal blueFromArgb pixels (lower c d p) : Int) : ℝ) /
        pixelCount pixels (lower c d p) +
      ((pixelTotal redFromArgb pixels (upper c d p) * pixelTotal redFromArgb pixels (upper c d p) +
      pixelTotal greenFromArgb pixels (upper c d p) * pixelTotal greenFromArgb pixels (upper c d p) +
      pixelTotal blueFromArgb pixels (upper c d p) * pixelTotal blueFromArgb pixels (upper c d p) : Int) : ℝ) /
        pixelCount pixels (upper c d p) := by
    simp only [e]
    rw [spread_box, spread_box, ← hs]
    push_cast
    ring
  rw [he]
  unfold scoreVal tablesOf
  rw [a1, a2, a3, a4, b1, b2, b3, b4]
  exact key

theorem sumSquares_eq (pixels : List Int) (c : Box) : sumSquares (pixelsIn pixels c) = (pixelTotal squared pixels c : ℝ) := by
  unfold sumSquares
  rw [pixelTotal_eq]
  induction pixelsIn pixels c with
  | nil => simp
  | cons p rest ih =>
    rw [List.map_cons, List.sum_cons, ih, List.map_cons, List.sum_cons]
    unfold squared
    push_cast
    ring

theorem cut_near {pixels : List Int} {entries : List (Int × Int)} (h : CountsOf pixels entries)
    (hN : opaqueCount pixels ≤ 10 ^ 10) {c c1 c2 : Box} (hc : Proper c)
    (hcut : cut (tablesOf (F64 L) entries) c = some (c1, c2)) : NearBestSplit pixels c c1 c2 := by
  refine ⟨cut_split h hc hcut, ?_⟩
  obtain ⟨d, p, h1, h2, rfl, rfl, v1, v2, hbest⟩ := cut_scored (scored_binary64 h hN hc) hcut
  rintro a1 a2 ⟨ha, hn1, hn2⟩
  obtain ⟨d', p', h1', h2', rfl, rfl⟩ := (cutOf_iff _ _ _).1 ha
  obtain ⟨p1, p2⟩ := proper_parts hc h1 h2
  obtain ⟨p1', p2'⟩ := proper_parts hc h1' h2'
  have hb := hbest d' p' h1' h2' ((weights_ne h p1').2 hn1) ((weights_ne h p2').2 hn2)
  have e1 := scoreVal_near (L := L) h hN hc h1 h2 ((weights_ne h p1).1 v1) ((weights_ne h p2).1 v2)
  have e2 := scoreVal_near (L := L) h hN hc h1' h2' hn1 hn2
  simp only at e1 e2
  simp only [pixelsIn_withVol]
  rw [sumSquares_eq]
  have hs := spread_nonneg (pixelsIn pixels (lower c d p))
  have hs' := spread_nonneg (pixelsIn pixels (upper c d p))
  have ht := spread_nonneg (pixelsIn pixels (lower c d' p'))
  have ht' := spread_nonneg (pixelsIn pixels (upper c d' p'))
  set T := (pixelTotal squared pixels c : ℝ)
  set x := spread (pixelsIn pixels (lower c d p)) + spread (pixelsIn pixels (upper c d p))
  set y := spread (pixelsIn pixels (lower c d' p')) + spread (pixelsIn pixels (upper c d' p'))
  have hx : 0 ≤ x := add_nonneg hs hs'
  have hy : 0 ≤ y := add_nonneg ht ht'
  have e48 : (2:ℝ) ^ (-48:ℤ) = 4 * 2 ^ (-50:ℤ) := by
    rw [show (-48:ℤ) = -50 + 2 by norm_num, zpow_add₀ (by norm_num)]; norm_num
  have e100 : (2:ℝ) ^ (-100:ℤ) = 2 ^ (-50:ℤ) * 2 ^ (-50:ℤ) := by rw [← zpow_add₀ (by norm_num)]; norm_num
  have su : (2:ℝ) ^ (-50:ℤ) ≤ 1 / 4 := by rw [zpow_neg]; norm_num
  rw [e100] at e1 e2
  rw [e48]
  set u : ℝ := 2 ^ (-50:ℤ)
  have hu : 0 < u := two_zpow_pos _
  have hT : 0 ≤ T := by
    have : 0 ≤ pixelTotal squared pixels c := by
      rw [pixelTotal_eq]
      refine List.sum_nonneg ?_
      intro z hz
      obtain ⟨q, -, rfl⟩ := List.mem_map.1 hz
      exact (squared_range q).1
    exact Int.cast_nonneg this
  exact final_bound hu su hx hy hT e1 e2 hb

/-- Binary64, with the quality of the cuts. -/
theorem exact_near {pixels : List Int} {entries : List (Int × Int)} (h : CountsOf pixels entries)
    (hN : opaqueCount pixels ≤ 10 ^ 10) :
    ExactArith (F := F64 L) (fun v a => Is v (a : ℝ)) (NearBestSplit pixels) (tablesOf (F64 L) entries) pixels :=
  { exact_binary64 (L := L) h hN with
    cutSome := fun hc hcut => ⟨cut_near h hN hc hcut, cut_split h hc hcut⟩ }

end Mcu.QuantizerWu
