import Verif.Lemmas.WuGreedy
import Verif.Props.WuCut
import Verif.Props.WuBinary64

/-! The arithmetic of the box loop is exact, over the reals and in binary64. -/

namespace Mcu.QuantizerWu

open Mcu.Spec Mcu.Props Mcu.Ieee Mcu.Lemmas ColorUtils

/-! ### The recorded spread -/

/-- The integer subtracted in `variance`. -/
def meanSquare (pixels : List Int) (c : Box) : Int :=
  (pixelTotal redFromArgb pixels c * pixelTotal redFromArgb pixels c +
    pixelTotal greenFromArgb pixels c * pixelTotal greenFromArgb pixels c +
    pixelTotal blueFromArgb pixels c * pixelTotal blueFromArgb pixels c) / pixelCount pixels c

theorem squares_nonneg (a b c : Int) : 0 ≤ a * a + b * b + c * c :=
  add_nonneg (add_nonneg (mul_self_nonneg a) (mul_self_nonneg b)) (mul_self_nonneg c)

theorem rank_eq {pixels : List Int} {c : Box} (h : pixelsIn pixels c ≠ []) :
    rank pixels c = pixelTotal squared pixels c - meanSquare pixels c := by
  have hn := (pixelCount_pos pixels c).2 h
  have hr : (0:ℝ) < pixelCount pixels c := by exact_mod_cast hn
  unfold rank meanSquare
  rw [spread_box]
  set a := pixelTotal redFromArgb pixels c * pixelTotal redFromArgb pixels c +
    pixelTotal greenFromArgb pixels c * pixelTotal greenFromArgb pixels c +
    pixelTotal blueFromArgb pixels c * pixelTotal blueFromArgb pixels c with ha
  have e : (pixelTotal redFromArgb pixels c : ℝ) ^ 2 + (pixelTotal greenFromArgb pixels c : ℝ) ^ 2 +
      (pixelTotal blueFromArgb pixels c : ℝ) ^ 2 = (a : ℝ) := by rw [ha]; push_cast; ring
  rw [e, Int.ceil_eq_iff]
  have h1 := Int.ediv_mul_le a hn.ne'
  have h2 := Int.lt_ediv_add_one_mul_self a hn
  have h1' : ((a / pixelCount pixels c : Int) : ℝ) * pixelCount pixels c ≤ a := by exact_mod_cast h1
  have h2' : (a : ℝ) < ((a / pixelCount pixels c : Int) + 1) * pixelCount pixels c := by exact_mod_cast h2
  have d1 : ((a / pixelCount pixels c : Int) : ℝ) ≤ a / pixelCount pixels c := (le_div_iff₀ hr).2 h1'
  have d2 : (a : ℝ) / pixelCount pixels c < (a / pixelCount pixels c : Int) + 1 := (div_lt_iff₀ hr).2 h2'
  push_cast
  constructor <;> linarith

theorem recorded_eq {F : Type} [Fl F] {pixels : List Int} {entries : List (Int × Int)} (h : CountsOf pixels entries)
    {c : Box} (hc : Proper c) (hn : pixelsIn pixels c ≠ []) : recorded (tablesOf F entries) c =
      some (if c.vol > 1 then volumeF c (tablesOf F entries).moments - Fl.ofInt (meanSquare pixels c) else 0.0) := by
  obtain ⟨a1, a2, a3, a4⟩ := c45_volume (F := F) pixels entries h c hc
  have hp := (pixelCount_pos pixels c).2 hn
  unfold recorded variance
  change volume c (tablesOf F entries).weights = _ at a1
  change volume c (tablesOf F entries).momentsR = _ at a2
  change volume c (tablesOf F entries).momentsG = _ at a3
  change volume c (tablesOf F entries).momentsB = _ at a4
  simp only [a1, a2, a3, a4, if_neg hp.ne']
  rw [Int.tdiv_eq_ediv_of_nonneg (squares_nonneg _ _ _)]
  split_ifs <;> rfl

/-- Exact reals. -/
theorem exact_real {pixels : List Int} {entries : List (Int × Int)} (h : CountsOf pixels entries) :
    ExactArith (F := ℝ) (fun v a => v = (a : ℝ)) (BestSplit pixels) (tablesOf ℝ entries) pixels where
  zero := by norm_num
  lt := by rintro v w a b rfl rfl; exact_mod_cast Iff.rfl
  le := by rintro v w a b rfl rfl; exact_mod_cast Iff.rfl
  cutNone hc hcut := (c69_no_cut pixels entries h _ hc).1 hcut
  cutSome hc hcut := by
    have := c69_best_cut pixels entries h _ hc _ _ hcut
    exact ⟨this, this.1⟩
  recorded {c} hc hn := by
    refine ⟨_, recorded_eq h hc hn, ?_⟩
    split_ifs
    · have := c45_squares pixels entries h c hc
      change volumeF c (tablesOf ℝ entries).moments = _ at this
      rw [this, rank_eq hn, fl_ofInt]
      push_cast
      rfl
    · norm_num

/-! ### Finding a cut in any arithmetic -/

section
variable {F : Type} [Fl F]

/-- What the search compares. -/
def scoreF (t : Tables F) (c : Box) (d : Direction) (i : Int) : F :=
  Fl.ofInt (volume (lower c d i) t.momentsR * volume (lower c d i) t.momentsR +
    volume (lower c d i) t.momentsG * volume (lower c d i) t.momentsG +
    volume (lower c d i) t.momentsB * volume (lower c d i) t.momentsB) / Fl.ofInt (volume (lower c d i) t.weights) +
  Fl.ofInt (volume (upper c d i) t.momentsR * volume (upper c d i) t.momentsR +
    volume (upper c d i) t.momentsG * volume (upper c d i) t.momentsG +
    volume (upper c d i) t.momentsB * volume (upper c d i) t.momentsB) / Fl.ofInt (volume (upper c d i) t.weights)

variable [WuArith F]

theorem maximize_pos (t : Tables F) (c : Box) (d : Direction) (first last i : Int) (hi : first ≤ i ∧ i < last)
    (h1 : volume (lower c d i) t.weights ≠ 0) (h2 : volume (upper c d i) t.weights ≠ 0) (hs : (0.0 : F) < scoreF t c d i) :
    (0.0 : F) < (maximize t c d first last (volume c t.momentsR) (volume c t.momentsG) (volume c t.momentsB)
      (volume c t.weights)).maximum := by
  have step : ∀ (s : MaximizeResult F) (j : Int), (0.0 : F) < s.maximum → (0.0 : F) <
      (maximizeStep t c d (volume c t.momentsR) (volume c t.momentsG) (volume c t.momentsB) (volume c t.weights) s j).maximum := by
    intro s j h
    simp only [maximizeStep]
    split_ifs with a b e
    · exact h
    · exact h
    · exact WuArith.lt_trans _ _ _ h e
    · exact h
  have hit : ∀ s : MaximizeResult F, NonNeg s.maximum → (0.0 : F) <
      (maximizeStep t c d (volume c t.momentsR) (volume c t.momentsG) (volume c t.momentsB) (volume c t.weights) s i).maximum := by
    intro s h
    simp only [maximizeStep, bottom_top, ← volume_upper, if_neg h1, if_neg h2]
    split_ifs with e
    · exact hs
    · rcases h with h | h
      · rw [h] at e
        exact absurd hs e
      · exact h
  have all : ∀ (l : List Int) (s : MaximizeResult F), (0.0 : F) < s.maximum → (0.0 : F) <
      (l.foldl (maximizeStep t c d (volume c t.momentsR) (volume c t.momentsG) (volume c t.momentsB) (volume c t.weights))
        s).maximum := by
    intro l
    induction l with
    | nil => exact fun s h => h
    | cons x rest ih => exact fun s h => ih _ (step s x h)
  have main : ∀ (l : List Int) (s : MaximizeResult F), (∀ j ∈ l, first ≤ j ∧ j < last) → i ∈ l →
      MaxOk t c d first last (volume c t.weights) s → (0.0 : F) <
      (l.foldl (maximizeStep t c d (volume c t.momentsR) (volume c t.momentsG) (volume c t.momentsB) (volume c t.weights))
        s).maximum := by
    intro l
    induction l with
    | nil => intro s _ h; cases h
    | cons x rest ih =>
      intro s hl hx hs'
      rw [List.foldl_cons]
      rcases List.mem_cons.1 hx with rfl | hx
      · exact all _ _ (hit s hs'.nonneg)
      · exact ih _ (fun j hj => hl j (List.mem_cons_of_mem _ hj)) hx (maximizeStep_ok hs' (hl x List.mem_cons_self))
  exact main _ _ (fun j hj => mem_rangeI hj) (mem_rangeI_iff.2 hi) (Or.inl ⟨rfl, rfl⟩)

theorem cut_none_generic {t : Tables F} {one : Box} (h0 : 0 ≤ one.r0) (h : cut t one = none) (d : Direction) (p : Int)
    (hl : lo one d < p) (hh : p < hi one d) (h1 : volume (lower one d p) t.weights ≠ 0)
    (h2 : volume (upper one d p) t.weights ≠ 0) : ¬ (0.0 : F) < scoreF t one d p := by
  intro hs
  simp only [cut] at h
  split_ifs at h with g1 g2
  have mr := maximize_ok t one .red (one.r0 + 1) one.r1 (volume one t.momentsR) (volume one t.momentsG)
    (volume one t.momentsB) (volume one t.weights)
  rcases mr with ⟨-, e⟩ | ⟨l1, -⟩
  · rw [e] at g1
    cases d <;> simp only [lo, hi] at hl hh
    · have := maximize_pos t one .red (one.r0 + 1) one.r1 p ⟨by omega, hh⟩ h1 h2 hs
      rw [e] at this
      exact WuArith.pos_not_le _ this (WuArith.zero_le _ (Or.inl rfl))
    · exact WuArith.pos_not_le _ (maximize_pos t one .green (one.g0 + 1) one.g1 p ⟨by omega, hh⟩ h1 h2 hs) g1.1
    · exact WuArith.pos_not_le _ (maximize_pos t one .blue (one.b0 + 1) one.b1 p ⟨by omega, hh⟩ h1 h2 hs) g1.2
  · omega

/-- A cut goes strictly inside and leaves pixels on both sides. -/
theorem cut_split {pixels : List Int} {entries : List (Int × Int)} (h : CountsOf pixels entries) {c c1 c2 : Box}
    (hc : Proper c) (hcut : cut (tablesOf F entries) c = some (c1, c2)) : Split pixels c c1 c2 := by
  obtain ⟨d, p, h1, h2, rfl, rfl, v1, v2⟩ := cut_ok hcut
  obtain ⟨p1, p2⟩ := proper_split hc d p ⟨h1, h2⟩
  exact ⟨(cutOf_iff _ _ _).2 ⟨d, p, h1, h2, rfl, rfl⟩, (weights_ne h p1).1 v1, (weights_ne h p2).1 v2⟩

end

/-! ### Binary64 -/

variable {L : Libm}

theorem quotient_ok {a b : ℤ} (ha : 0 ≤ a) (ha' : a ≤ 2 ^ 100) (hb : 1 ≤ b) (hb' : b ≤ 2 ^ 53) :
    ∃ v, Is (Fl.ofInt a / Fl.ofInt b : F64 L) v ∧ 0 ≤ v ∧ v ≤ 2 ^ 100 ∧ (1 ≤ a → 2 ^ (-53 : ℤ) ≤ v) := by
  have r100 : Rep ((2:ℝ) ^ (100:ℤ)) := rep_zpow (by norm_num)
  have r53 : Rep ((2:ℝ) ^ (-53:ℤ)) := rep_zpow (by norm_num)
  have e100 : (2:ℝ) ^ (100:ℤ) = 2 ^ 100 := by norm_num
  have big : ∀ v : ℝ, 0 ≤ v → v ≤ 2 ^ 100 → |rnd v| < 2 ^ 1024 := by
    intro v h0 h1
    rw [abs_of_nonneg (rnd_nonneg h0)]
    have := r100.rnd_le (h1.trans e100.ge)
    rw [e100] at this
    exact this.trans_lt (pow_lt_pow_right₀ (by norm_num) (by norm_num))
  have har : (0:ℝ) ≤ a := by exact_mod_cast ha
  have har' : (a:ℝ) ≤ 2 ^ 100 := by exact_mod_cast ha'
  have hbr : (1:ℝ) ≤ b := by exact_mod_cast hb
  have hbr' : (b:ℝ) ≤ 2 ^ 53 := by exact_mod_cast hb'
  have i1 : Is (Fl.ofInt a : F64 L) (rnd (a:ℝ)) := is_ofReal false (big _ har har')
  have i2 : Is (Fl.ofInt b : F64 L) (b : ℝ) := is_ofInt (by rw [abs_of_nonneg (by omega)]; exact hb')
  have ra0 := rnd_nonneg har
  have ra1 : rnd (a:ℝ) ≤ 2 ^ 100 := by rw [← e100]; exact r100.rnd_le (by rw [e100]; exact har')
  have q0 : 0 ≤ rnd (a:ℝ) / b := div_nonneg ra0 (by linarith)
  have q1 : rnd (a:ℝ) / b ≤ 2 ^ 100 := (div_le_self ra0 hbr).trans ra1
  refine ⟨_, i1.div i2 (by linarith) (big _ q0 q1), rnd_nonneg q0, ?_, ?_⟩
  · rw [← e100]; exact r100.rnd_le (by rw [e100]; exact q1)
  · intro h1
    refine r53.le_rnd ?_
    have hone : (1:ℝ) ≤ rnd (a:ℝ) := by
      have : Rep ((1:ℤ):ℝ) := rep_int (by norm_num)
      have := this.le_rnd (v := (a:ℝ)) (by exact_mod_cast h1)
      simpa using this
    rw [le_div_iff₀ (by linarith)]
    calc (2:ℝ) ^ (-53:ℤ) * b ≤ 2 ^ (-53:ℤ) * 2 ^ 53 := by gcongr
      _ = 1 := by rw [zpow_neg]; norm_num
      _ ≤ _ := hone

theorem sum_pos_ok {x y : F64 L} {v w : ℝ} (hx : Is x v) (hy : Is y w) (hv : 0 ≤ v ∧ v ≤ 2 ^ 100)
    (hw : 2 ^ (-53 : ℤ) ≤ w ∧ w ≤ 2 ^ 100) : (0.0 : F64 L) < x + y := by
  have r101 : Rep ((2:ℝ) ^ (101:ℤ)) := rep_zpow (by norm_num)
  have r53 : Rep ((2:ℝ) ^ (-53:ℤ)) := rep_zpow (by norm_num)
  have e101 : (2:ℝ) ^ (101:ℤ) = 2 ^ 101 := by norm_num
  have p53 : (0:ℝ) < 2 ^ (-53:ℤ) := by positivity
  have hsum : |rnd (v + w)| < 2 ^ 1024 := by
    rw [abs_of_nonneg (rnd_nonneg (by linarith))]
    have hle : v + w ≤ 2 ^ (101:ℤ) := by rw [e101]; linarith [hv.2, hw.2, show (2:ℝ) ^ 101 = 2 ^ 100 + 2 ^ 100 by norm_num]
    have := r101.rnd_le hle
    rw [e101] at this
    exact this.trans_lt (pow_lt_pow_right₀ (by norm_num) (by norm_num))
  have hz : Is (0.0 : F64 L) ((0 : Int) : ℝ) := is_lit_int (by norm_num) (by norm_num)
  rw [hz.lt_iff (hx.add hy hsum)]
  have := r53.le_rnd (v := v + w) (by linarith)
  push_cast
  linarith

/-- The sizes of the numbers the search works with. -/
theorem totals_small {pixels : List Int} (hN : opaqueCount pixels ≤ 10 ^ 10) (c : Box) :
    0 ≤ pixelCount pixels c ∧ pixelCount pixels c ≤ 10 ^ 10 ∧
    (0 ≤ pixelTotal redFromArgb pixels c ∧ pixelTotal redFromArgb pixels c ≤ 255 * 10 ^ 10) ∧
    (0 ≤ pixelTotal greenFromArgb pixels c ∧ pixelTotal greenFromArgb pixels c ≤ 255 * 10 ^ 10) ∧
    (0 ≤ pixelTotal blueFromArgb pixels c ∧ pixelTotal blueFromArgb pixels c ≤ 255 * 10 ^ 10) := by
  have h0 : 0 ≤ pixelCount pixels c := by unfold pixelCount; omega
  have h1 : pixelCount pixels c ≤ 10 ^ 10 := by
    refine le_trans ?_ hN
    unfold pixelCount opaqueCount
    have := countP_le pixels (fun p => decide (alphaFromArgb p = 255 ∧ InBox c p)) (fun p => decide (alphaFromArgb p = 255))
      (by intro x _ hx; simp only [decide_eq_true_eq] at hx ⊢; exact hx.1)
    omega
  have b := fun w hw => pixelTotal_bounds w hw pixels c
  have b1 := b redFromArgb fun p => (channel_range p).1
  have b2 := b greenFromArgb fun p => (channel_range p).2.1
  have b3 := b blueFromArgb fun p => (channel_range p).2.2
  omega

theorem scoreF_pos {pixels : List Int} {entries : List (Int × Int)} (h : CountsOf pixels entries)
    (hN : opaqueCount pixels ≤ 10 ^ 10) {c : Box} (hc : Proper c) {d : Direction} {p : Int} (h1 : lo c d < p)
    (h2 : p < hi c d) (hs1 : pixelsIn pixels (lower c d p) ≠ []) (hs2 : pixelsIn pixels (upper c d p) ≠ []) :
    (0.0 : F64 L) < scoreF (tablesOf (F64 L) entries) c d p := by
  obtain ⟨p1, p2⟩ := proper_parts hc h1 h2
  obtain ⟨a1, a2, a3, a4⟩ := c45_volume (F := F64 L) pixels entries h _ p1
  obtain ⟨b1, b2, b3, b4⟩ := c45_volume (F := F64 L) pixels entries h _ p2
  have n1 := (pixelCount_pos _ _).2 hs1
  have n2 := (pixelCount_pos _ _).2 hs2
  obtain ⟨-, t1, ⟨r0, r1⟩, ⟨g0, g1⟩, ⟨u0, u1⟩⟩ := totals_small hN (lower c d p)
  obtain ⟨-, t1', ⟨r0', r1'⟩, ⟨g0', g1'⟩, ⟨u0', u1'⟩⟩ := totals_small hN (upper c d p)
  unfold scoreF
  change volume (lower c d p) (tablesOf (F64 L) entries).weights = _ at a1
  change volume (lower c d p) (tablesOf (F64 L) entries).momentsR = _ at a2
  change volume (lower c d p) (tablesOf (F64 L) entries).momentsG = _ at a3
  change volume (lower c d p) (tablesOf (F64 L) entries).momentsB = _ at a4
  change volume (upper c d p) (tablesOf (F64 L) entries).weights = _ at b1
  change volume (upper c d p) (tablesOf (F64 L) entries).momentsR = _ at b2
  change volume (upper c d p) (tablesOf (F64 L) entries).momentsG = _ at b3
  change volume (upper c d p) (tablesOf (F64 L) entries).momentsB = _ at b4
  rw [a1, a2, a3, a4, b1, b2, b3, b4]
  have sq : ∀ x : Int, 0 ≤ x → x ≤ 255 * 10 ^ 10 → 0 ≤ x * x ∧ x * x ≤ (255 * 10 ^ 10) * (255 * 10 ^ 10) :=
    fun x h0 h1 => ⟨mul_nonneg h0 h0, mul_le_mul h1 h1 h0 (by norm_num)⟩
  have q1 := sq _ r0 r1
  have q2 := sq _ g0 g1
  have q3 := sq _ u0 u1
  have q1' := sq _ r0' r1'
  have q2' := sq _ g0' g1'
  have q3' := sq _ u0' u1'
  obtain ⟨v, hv, v0, v1, -⟩ := quotient_ok (L := L) (a := _ + _ + _) (b := pixelCount pixels (lower c d p))
    (add_nonneg (add_nonneg q1.1 q2.1) q3.1) (by omega) (by omega) (by omega)
  obtain ⟨w, hw, -, w1, w2⟩ := quotient_ok (L := L) (a := _ + _ + _) (b := pixelCount pixels (upper c d p))
    (add_nonneg (add_nonneg q1'.1 q2'.1) q3'.1) (by omega) (by omega) (by omega)
  refine sum_pos_ok hv hw ⟨v0, v1⟩ ⟨w2 ?_, w1⟩
  rcases upper_bright hc h1 hs2 with hp | hp | hp
  · have := mul_pos hp hp; omega
  · have := mul_pos hp hp; omega
  · have := mul_pos hp hp; omega

/-- Binary64. -/
theorem exact_binary64 {pixels : List Int} {entries : List (Int × Int)} (h : CountsOf pixels entries)
    (hN : opaqueCount pixels ≤ 10 ^ 10) :
    ExactArith (F := F64 L) (fun v a => Is v (a : ℝ)) (Split pixels) (tablesOf (F64 L) entries) pixels where
  zero := is_lit_int (by norm_num) (by norm_num)
  lt := by intro v w a b hv hw; rw [hv.lt_iff hw]; exact_mod_cast Iff.rfl
  le := by intro v w a b hv hw; rw [hv.le_iff hw]; exact_mod_cast Iff.rfl
  cutNone {c} hc hcut := by
    rintro ⟨c1, c2, ha, hn1, hn2⟩
    obtain ⟨d, p, h1, h2, rfl, rfl⟩ := (cutOf_iff _ _ _).1 ha
    obtain ⟨p1, p2⟩ := proper_parts hc h1 h2
    exact cut_none_generic hc.1.1 hcut d p h1 h2 ((weights_ne h p1).2 hn1) ((weights_ne h p2).2 hn2)
      (scoreF_pos h hN hc h1 h2 hn1 hn2)
  cutSome hc hcut := ⟨cut_split h hc hcut, cut_split h hc hcut⟩
  recorded {c} hc hn := by
    refine ⟨_, recorded_eq h hc hn, ?_⟩
    split_ifs
    · have hi := c45_binary64_squares (L := L) pixels entries h hN c hc
      change Is (volumeF c (tablesOf (F64 L) entries).moments) _ at hi
      have hr := rank_nonneg pixels c
      rw [rank_eq hn] at hr ⊢
      have hn' := (pixelCount_pos pixels c).2 hn
      have m0 : 0 ≤ meanSquare pixels c := by
        unfold meanSquare
        exact Int.ediv_nonneg (squares_nonneg _ _ _) hn'.le
      have hs : pixelTotal squared pixels c ≤ 195075 * 10 ^ 10 := by
        have hb : pixelTotal squared pixels c ≤ 195075 * pixelCount pixels c := by
          rw [← pixelTotal_one]
          unfold pixelTotal
          generalize (pixels.filter fun p => decide (alphaFromArgb p = 255 ∧ InBox c p)) = l
          induction l with
          | nil => simp
          | cons p rest ih =>
            have := squared_range p
            simp only [List.map_cons, List.sum_cons]
            omega
        have := (totals_small hN c).2.1
        omega
      exact is_int_sub hi (is_ofInt (by rw [abs_of_nonneg m0]; omega)) (by rw [abs_of_nonneg hr]; omega)
    · have : Is (0.0 : F64 L) ((0 : Int) : ℝ) := is_lit_int (by norm_num) (by norm_num)
      exact this

end Mcu.QuantizerWu
