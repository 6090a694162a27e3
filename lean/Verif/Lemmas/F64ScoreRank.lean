import Verif.Lemmas.F64Score

/-! Ranking and selection in IEEE-754 binary64. -/

namespace Mcu.Score

open Mcu.Ieee Mcu.Lemmas Mcu.Props Mcu.Props.Binary64 MathUtils Mcu.Spec

variable {L : Libm}

local notation "𝔻" => F64 L

/-! ### Scores -/

theorem chromaC_range (hS : L.Sound) (c : Int) : Is (Hct.fromInt c : Hct 𝔻).getChroma (chromaC L c) ∧ 0 ≤ chromaC L c ∧ chromaC L c ≤ 9.1 * 10 ^ 9 := by
  obtain ⟨-, ⟨v, iv, v0, v1⟩, -⟩ := cam64 hS.pow hS.dark hS.exp hS.trig hS.atan c
  have iv : Is (Hct.fromInt c : Hct 𝔻).getChroma v := iv
  have e : chromaC L c = v := iv.2
  rw [e]
  exact ⟨iv, v0, v1⟩

theorem rnd_fin {v : ℝ} (h : |v| ≤ 10 ^ 11) : |rnd v| < 2 ^ 1024 ∧ |rnd v - v| ≤ |v| * (2 / 10 ^ 16) + 1 / 10 ^ 72 := by
  have r := rnd_any v
  refine ⟨?_, r⟩
  have h1 := abs_add_le (rnd v - v) v
  rw [sub_add_cancel] at h1
  have h2 : |rnd v| ≤ 2 ^ 40 := by
    generalize |rnd v - v| = a at *
    generalize |rnd v| = b at *
    generalize |v| = c at *
    norm_num at *
    linarith
  exact lt_of_le_of_lt h2 (pow_lt_pow_right₀ (by norm_num) (by norm_num))

theorem pow1 : (1 : ℝ) ≤ 2 ^ 1000 := one_le_pow₀ (by norm_num)

/-- The weighted distance of the chroma from 48. -/
theorem chromaScore64 {C W : 𝔻} {c w : ℝ} (iC : Is C c) (c0 : 0 ≤ c) (c1 : c ≤ 9.1 * 10 ^ 9) (iW : Is W (rnd w)) (w0 : 0.1 ≤ w) (w1 : w ≤ 0.3) :
    ∃ m, Is ((C - 48.0) * W) m ∧ |m - w * (c - 48)| ≤ 3 / 10 ^ 16 * (c + 48) + 1 / 10 ^ 20 := by
  have i48 : Is (48.0 : 𝔻) 48 := by simpa using lit (L := L) 480 1 true 48 (by norm_num) (by norm_num)
  have hy : |c - 48| ≤ c + 48 := by rw [abs_le]; constructor <;> linarith
  obtain ⟨a1, a2⟩ := rnd_fin (v := c - 48) (hy.trans (by norm_num at *; linarith))
  have ix := iC.sub i48 a1
  have rw' := rnd_any w
  rw [abs_of_nonneg (show 0 ≤ w by norm_num at w0; linarith)] at rw'
  generalize rnd w = w' at *
  generalize rnd (c - 48) = x at *
  have hx : |x - (c - 48)| ≤ (c + 48) * (2 / 10 ^ 16) + 1 / 10 ^ 72 := a2.trans (by norm_num at *; linarith)
  have hxa : |x| ≤ 1.001 * (c + 48) := by
    have h1 := abs_add_le (x - (c - 48)) (c - 48)
    rw [sub_add_cancel] at h1
    norm_num at *; linarith
  have hw : |w'| ≤ 0.31 := by
    have h1 := abs_add_le (w' - w) w
    rw [sub_add_cancel, abs_of_nonneg (show 0 ≤ w by norm_num at w0; linarith)] at h1
    norm_num at *; linarith
  have hm : |x * w' - w * (c - 48)| ≤ 1.5 / 10 ^ 16 * (c + 48) + 1 / 10 ^ 60 := by
    have e : x * w' - w * (c - 48) = (x - (c - 48)) * w' + (c - 48) * (w' - w) := by ring
    rw [e]
    refine (abs_add_le _ _).trans ?_
    rw [abs_mul, abs_mul]
    have h1 : |x - (c - 48)| * |w'| ≤ ((c + 48) * (2 / 10 ^ 16) + 1 / 10 ^ 72) * 0.31 := mul_le_mul hx hw (abs_nonneg _) (by positivity)
    have h2 : |c - 48| * |w' - w| ≤ (c + 48) * (0.3 * (2 / 10 ^ 16) + 1 / 10 ^ 72) := mul_le_mul hy (rw'.trans (by norm_num at *; linarith)) (abs_nonneg _) (by linarith)
    norm_num at h1 h2 ⊢
    linarith
  have hxw : |x * w'| ≤ 0.32 * (c + 48) := by
    rw [abs_mul]
    refine (mul_le_mul hxa hw (abs_nonneg _) (by linarith)).trans ?_
    norm_num; linarith
  obtain ⟨m1, m2⟩ := rnd_fin (v := x * w') (hxw.trans (by norm_num at *; linarith))
  refine ⟨_, ix.mul iW m1, ?_⟩
  have h := (abs_add_le _ _).trans (add_le_add m2 hm)
  rw [sub_add_sub_cancel] at h
  refine h.trans ?_
  norm_num at *
  linarith

theorem scoreOf_eq (excited : List 𝔻) (hct : Hct 𝔻) : scoreOf excited hct =
    proportionOf excited hct * 100.0 * 0.7 + (hct.getChroma - 48.0) * (if hct.getChroma < (48.0 : 𝔻) then 0.1 else 0.3) := rfl

theorem scoreParts64 {P C : 𝔻} {p sh ch : ℝ} (ip : Is P p) (hp : |p - sh| ≤ 720 * ρ) (s0 : 0 ≤ sh) (s1 : sh ≤ 1) (iC : Is C ch) (c0 : 0 ≤ ch) (c1 : ch ≤ 9.1 * 10 ^ 9) :
    ∃ s, Is (P * 100.0 * 0.7 + (C - 48.0) * (if C < (48.0 : 𝔻) then 0.1 else 0.3)) s ∧
      |s - (70 * sh + (if ch < 48 then 0.1 else 0.3) * (ch - 48))| ≤ 1 / 10 ^ 7 + ch / 10 ^ 15 := by
  have i48 : Is (48.0 : 𝔻) 48 := by simpa using lit (L := L) 480 1 true 48 (by norm_num) (by norm_num)
  -- the share
  have hP : Ap P sh (720 * ρ) := ⟨p, ip, hp⟩
  have a1 := hP.mul (ap_lit (L := L) (m := 1000) (s := true) (e := 1) (v := 100) (by norm_num) (by norm_num)) (A := 1) (B := 100)
    (by rw [abs_of_nonneg s0]; exact s1) (by norm_num) (by unfold ρ; norm_num)
  have a2 := a1.mul (ap_lit (L := L) (m := 7) (s := true) (e := 1) (v := 0.7) (by norm_num) (by norm_num)) (A := 100) (B := 1)
    (by rw [abs_of_nonneg (by linarith)]; linarith) (by norm_num [abs_le]) (by unfold ρ; norm_num)
  obtain ⟨a, ia, ha⟩ := a2
  have ha : |a - 70 * sh| ≤ 9 / 10 ^ 8 := by
    rw [show sh * 100 * 0.7 = 70 * sh by norm_num; ring] at ha
    exact ha.trans (by unfold ρ; norm_num)
  -- the chroma
  obtain ⟨w, hw, w0, w1, ew⟩ : ∃ w : ℝ, Is (if C < (48.0 : 𝔻) then (0.1 : 𝔻) else 0.3) (rnd w) ∧ 0.1 ≤ w ∧ w ≤ 0.3 ∧
      (if ch < 48 then (0.1 : ℝ) else 0.3) = w := by
    by_cases hlt : ch < 48
    · rw [if_pos ((iC.lt_iff i48).2 hlt), if_pos hlt]
      exact ⟨0.1, is_lit (by norm_num) (le_trans (by norm_num [abs_le]) pow1), by norm_num, by norm_num, rfl⟩
    · rw [if_neg (fun hh => hlt ((iC.lt_iff i48).1 hh)), if_neg hlt]
      exact ⟨0.3, is_lit (by norm_num) (le_trans (by norm_num [abs_le]) pow1), by norm_num, by norm_num, rfl⟩
  rw [ew]
  obtain ⟨m, im, hm⟩ := chromaScore64 iC c0 c1 hw w0 w1
  have hu : |w * (ch - 48)| ≤ 0.3 * (ch + 48) := by
    rw [abs_mul]
    refine mul_le_mul (by rw [abs_of_nonneg (by norm_num at w0; linarith)]; exact w1) ?_ (abs_nonneg _) (by norm_num)
    rw [abs_le]; constructor <;> linarith
  have ht : |a + m - (70 * sh + w * (ch - 48))| ≤ 9 / 10 ^ 8 + (3 / 10 ^ 16 * (ch + 48) + 1 / 10 ^ 20) := by
    rw [show a + m - (70 * sh + w * (ch - 48)) = (a - 70 * sh) + (m - w * (ch - 48)) by ring]
    exact (abs_add_le _ _).trans (add_le_add ha hm)
  have hb : |a + m| ≤ 71 + 0.31 * (ch + 48) := by
    have h1 := abs_add_le (a + m - (70 * sh + w * (ch - 48))) (70 * sh + w * (ch - 48))
    rw [sub_add_cancel] at h1
    have h2 := abs_add_le (70 * sh) (w * (ch - 48))
    rw [abs_of_nonneg (show 0 ≤ 70 * sh by linarith)] at h2
    norm_num at *
    linarith
  obtain ⟨t1, t2⟩ := rnd_fin (v := a + m) (hb.trans (by norm_num at *; linarith))
  refine ⟨_, ia.add im t1, ?_⟩
  have h := (abs_add_le _ _).trans (add_le_add t2 ht)
  rw [sub_add_sub_cancel] at h
  refine h.trans ?_
  norm_num at hb ⊢
  linarith

/-- The computed score of a colour. -/
theorem score64 (hS : L.Sound) (hT : L.TempOk) (hZ : L.AtanZero) {entries : List (Int × Int)} (hc : Counts entries) {h : Histogram 𝔻}
    (hh : HistOf L entries h) (c : Int) :
    ∃ s, Is (scoreOf (excitedProportions h) (Hct.fromInt c)) s ∧
      |s - scoreBy (hueC L) (chromaC L) entries c| ≤ 1 / 10 ^ 7 + chromaC L c / 10 ^ 15 := by
  obtain ⟨p, ip, hp⟩ := proportion64 hS hT hZ hc hh c
  obtain ⟨s0, s1⟩ := shareBy_range (hueC L) hc c
  obtain ⟨iC, c0, c1⟩ := chromaC_range hS c
  rw [scoreOf_eq]
  exact scoreParts64 ip hp s0 s1 iC c0 c1

/-! ### Ranking -/

/-- The computed score of a colour. -/
noncomputable def scoreC (h : Histogram 𝔻) (c : Int) : ℝ := val (scoreOf (excitedProportions h) (Hct.fromInt c))

theorem is_scoreC (hS : L.Sound) (hT : L.TempOk) (hZ : L.AtanZero) {entries : List (Int × Int)} (hc : Counts entries) {h : Histogram 𝔻}
    (hh : HistOf L entries h) (c : Int) : Is (scoreOf (excitedProportions h) (Hct.fromInt c)) (scoreC h c) ∧
      |scoreC h c - scoreBy (hueC L) (chromaC L) entries c| ≤ 1 / 10 ^ 7 + chromaC L c / 10 ^ 15 := by
  obtain ⟨s, is, hs⟩ := score64 hS hT hZ hc hh c
  have e : scoreC h c = s := is.2
  rw [e]
  exact ⟨is, hs⟩

theorem scored64 (hS : L.Sound) (hT : L.TempOk) (hZ : L.AtanZero) {entries : List (Int × Int)} (hc : Counts entries) {h : Histogram 𝔻}
    (hh : HistOf L entries h) (hcol : h.colorsHct = entries.map fun e => Hct.fromInt e.1) (filter : Bool) :
    ∃ ranked : List Int,
      ranked.Perm ((entries.map Prod.fst).filter fun c => keeps filter (excitedProportions h) (Hct.fromInt c)) ∧
      ranked.Pairwise (fun a b => scoreC h b ≤ scoreC h a) ∧
      scored filter h = ranked.map fun c => (⟨Hct.fromInt c, scoreOf (excitedProportions h) (Hct.fromInt c)⟩ : ScoredHct 𝔻) := by
  set mk : Int → ScoredHct 𝔻 := fun c => ⟨Hct.fromInt c, scoreOf (excitedProportions h) (Hct.fromInt c)⟩ with hmk
  set K : List Int := (entries.map Prod.fst).filter fun c => keeps filter (excitedProportions h) (Hct.fromInt c) with hK
  have hl : (h.colorsHct.filter (keeps filter (excitedProportions h))).map
      (fun hct => ({ hct, score := scoreOf (excitedProportions h) hct } : ScoredHct 𝔻)) = K.map mk := by
    rw [hcol, hK]
    have : (entries.map fun e => (Hct.fromInt e.1 : Hct 𝔻)) = (entries.map Prod.fst).map Hct.fromInt := by
      rw [List.map_map]; rfl
    rw [this, List.filter_map, List.map_map]
    rfl
  have hsd : scored filter h = (K.map mk).mergeSort (fun a b => !ltScored b a) := by
    unfold scored
    simp only
    rw [hl]
  -- the comparison is that of the computed scores
  let le : Int → Int → Bool := fun a b => decide (scoreC h b ≤ scoreC h a)
  have hms : (K.mergeSort le).map mk = (K.map mk).mergeSort (fun a b => !ltScored b a) := by
    refine List.map_mergeSort ?_
    intro a _ b _
    show decide (scoreC h b ≤ scoreC h a) = !decide (scoreOf (excitedProportions h) (Hct.fromInt b) > scoreOf (excitedProportions h) (Hct.fromInt a))
    have ia := (is_scoreC hS hT hZ hc hh a).1
    have ib := (is_scoreC hS hT hZ hc hh b).1
    rw [Bool.eq_iff_iff, decide_eq_true_iff, Bool.not_eq_true', decide_eq_false_iff_not, gt_iff_lt, ia.lt_iff ib, not_lt]
  refine ⟨K.mergeSort le, List.mergeSort_perm _ _, ?_, ?_⟩
  · have := List.pairwise_mergeSort (le := le) (fun a b c hab hbc => ?_) (fun a b => ?_) K
    · exact this.imp fun h => of_decide_eq_true h
    · simp only [le, decide_eq_true_iff] at *
      exact hbc.trans hab
    · simp only [le, Bool.or_eq_true, decide_eq_true_iff]
      exact le_total _ _
  · rw [hsd, ← hms]

/-- Distances between computed hues, and their comparison with whole numbers of degrees. -/
theorem close64 (hS : L.Sound) (hT : L.TempOk) (hZ : L.AtanZero) (d : Int) (h0 : 0 ≤ d) (h1 : d ≤ 360) (a b : Int) :
    (Close d (Hct.fromInt a : Hct 𝔻) (Hct.fromInt b) → hueDistance (hueC L a) (hueC L b) < d + 1 / 10 ^ 13) ∧
      (¬ Close d (Hct.fromInt a : Hct 𝔻) (Hct.fromInt b) → d - 1 / 10 ^ 13 ≤ hueDistance (hueC L a) (hueC L b)) := by
  obtain ⟨ia, a0, a1⟩ := hueC_range hS hT hZ a
  obtain ⟨ib, b0, b1⟩ := hueC_range hS hT hZ b
  obtain ⟨f, -, -, hd, -⟩ := c07_binary64 (Hct.fromInt a : Hct 𝔻).getHue (Hct.fromInt b : Hct 𝔻).getHue ia.1 ib.1 ⟨a0, a1.le⟩ ⟨b0, b1.le⟩
  have hd : |val (differenceDegrees (Hct.fromInt a : Hct 𝔻).getHue (Hct.fromInt b : Hct 𝔻).getHue) - hueDistance (hueC L a) (hueC L b)| ≤ 2 ^ (-44 : ℤ) := hd
  have hd := abs_le.1 hd
  unfold Close
  rw [(is_of _ f).lt_iff (is_ofInt (L := L) (n := d) (by rw [abs_of_nonneg h0]; omega))]
  norm_num at hd ⊢
  constructor <;> intro h <;> linarith

end Mcu.Score
