import Verif.Lemmas.F64Search
import Verif.Lemmas.StandardColors
import Verif.Props.Surfaces

/-! Properties C22, C55, C57, C58, C59 and C76 in IEEE-754 binary64: contrast curves and the tones of the Material roles. -/

namespace Mcu.Props.Binary64

open Mcu.Ieee DynamicColor Material Lemmas Spec Contrast ColorUtils

variable {L : Libm}

local notation "𝔻" => F64 L

/-! ## C22 -/

/-- C22: in binary64, a contrast curve whose control values are at most 100 in size gives, at every level (also an
infinite one and NaN, which counts as a high level), a finite number within 10⁻⁹ of the exact interpolation. -/
theorem c22_binary64_accurate (k : ContrastCurve 𝔻) (hk : CurveFin k) (x : 𝔻) :
    Fin (k.get x) ∧ |val (k.get x) - (realCurve k).get (levelOf x)| ≤ 1 / 10 ^ 9 := by
  obtain ⟨v, hv, hd⟩ := ap_get k hk x
  rw [show val (k.get x) = v from hv.2]
  exact ⟨hv.1, hd⟩

/-! ## The schemes -/

theorem tonesOk_made (hL : L.PowOk) (s : DynamicScheme 𝔻) (h : Made s ∨ Assembled s) : TonesOk s := by
  have tone {c : Hct 𝔻} (hc : Standard c) : ToneOk c.getTone := by
    obtain ⟨n, rfl⟩ := hc
    obtain ⟨h1, h2, h3, -⟩ := c15_binary64 hL n
    exact ⟨h1, h2, h3⟩
  obtain ⟨h1, h2, h3, h4, h5, h6⟩ := standard_made s h
  exact ⟨tone h1, tone h2, tone h3, tone h4, tone h5, tone h6⟩

/-! ## C57 -/

/-- C57: in binary64, whenever a role of a scheme that the library makes, or of one assembled from palettes given by hue
and chroma, has a tone, this is a finite number from 0 to 100, up to 2·10⁻⁵. -/
theorem c57_binary64 (hL : L.PowOk) (s : DynamicScheme 𝔻) (hs : Made s ∨ Assembled s) (rounds fuel : Nat) (r : Role) (t : 𝔻)
    (h : getTone (registry rounds) s fuel r = some t) : Fin t ∧ -(2 / 10 ^ 5) ≤ val t ∧ val t ≤ 100 + 2 / 10 ^ 5 :=
  role_ok hL rounds s (tonesOk_made hL s hs) (searchOk hL rounds s) fuel r t h

/-! ## C55 and C59 -/

/-- C55: in binary64, for every set of dynamic colours and every pair two of them declare with distance 10: if the colours
ask for tones from 0 to 100, up to 2·10⁻⁵, on a background with a finite tone and with contrast ratios from 1 to 99,
then their final tones are at least 9.9999 apart in the declared order, and neither lies in [50, 60). -/
theorem c55_binary64 (hL : L.PowOk) {ι : Type} (env : ι → DynamicColor ι 𝔻) (s : DynamicScheme 𝔻) (p : ToneDeltaPair ι 𝔻)
    (hp : Paired env s p) (hd : Fin p.delta ∧ val p.delta = 10) (fuel : Nat) (a b : 𝔻)
    (hia : ∀ t, (env p.roleA).tone s (getTone env s fuel) = some t → ToneOk t)
    (hib : ∀ t, (env p.roleB).tone s (getTone env s fuel) = some t → ToneOk t)
    (hbg : ∀ g t, (env p.roleA).background = some g → getTone env s fuel (g s) = some t → Fin t)
    (hka : ∀ k, (env p.roleA).contrastCurve = some k → RatioCurve k)
    (hkb : ∀ k, (env p.roleB).contrastCurve = some k → RatioCurve k)
    (ha : getTone env s (fuel + 1) p.roleA = some a) (hb : getTone env s (fuel + 1) p.roleB = some b) :
    Apart p.polarity s.isDark 9.9999 (val a) (val b) ∧ ¬ Awkward (val a) ∧ ¬ Awkward (val b) ∧ ToneOk a ∧ ToneOk b := by
  obtain ⟨bg, ia, ib, ka, kb, ea, eb, ebg, eka, ekb, h1, h2⟩ := paired_tonesF env s p hp fuel a b ha hb
  obtain ⟨g, eg, ebg⟩ := Option.bind_eq_some_iff.1 ebg
  have fb := hbg g bg eg ebg
  have ra := (curve_ratioOk (hka ka eka) s.contrastLevel).1
  have rb := (curve_ratioOk (hkb kb ekb) s.contrastLevel).1
  have hdir : Is (if s.isDark then (1.0 : 𝔻) else -1.0) (if s.isDark then 1 else -1) := by
    cases s.isDark
    · exact lm1
    · exact l1
  have hσ : (if s.isDark then (1 : ℝ) else -1) = 1 ∨ (if s.isDark then (1 : ℝ) else -1) = -1 := by cases s.isDark <;> simp
  have P := pair64 hL (decide (s.contrastLevel < 0.0)) p.stayTogether fb ra rb (hia ia ea) (hib ib eb) hd hdir hσ
  have Q := pair64 hL (decide (s.contrastLevel < 0.0)) p.stayTogether fb rb ra (hib ib eb) (hia ia ea) hd hdir hσ
  cases hc : aIsNearer p.polarity s.isDark
  · have h := h2 hc
    simp only [← h] at Q
    obtain ⟨⟨t1, t2, t3⟩, c1, c2⟩ := Q
    dsimp only at t1 t2 t3 c1 c2
    refine ⟨?_, c2, c1, t2, t1⟩
    cases hs : s.isDark <;> cases hpol : p.polarity <;> simp [hs, hpol, aIsNearer] at hc <;>
      simp only [hs, Apart, if_true, Bool.false_eq_true, if_false] at t3 ⊢ <;> linarith
  · have h := h1 hc
    simp only [← h] at P
    obtain ⟨⟨t1, t2, t3⟩, c1, c2⟩ := P
    dsimp only at t1 t2 t3 c1 c2
    refine ⟨?_, c1, c2, t1, t2⟩
    cases hs : s.isDark <;> cases hpol : p.polarity <;> simp [hs, hpol, aIsNearer] at hc <;>
      simp only [hs, Apart, if_true, Bool.false_eq_true, if_false] at t3 ⊢ <;> linarith

theorem material_pair64 (hL : L.PowOk) (s : DynamicScheme 𝔻) (hs : TonesOk s) (rounds : Nat) (x : Role)
    (f : DynamicScheme 𝔻 → ToneDeltaPair Role 𝔻) (hx : (registry rounds x).toneDeltaPair = some f) (m n : Nat) (a b : 𝔻)
    (ha : getTone (registry rounds) s m (f s).roleA = some a) (hb : getTone (registry rounds) s n (f s).roleB = some b) :
    Apart (f s).polarity s.isDark 9.9999 (val a) (val b) ∧ ¬ Awkward (val a) ∧ ¬ Awkward (val b) := by
  have hm := registry_mono (F := 𝔻) rounds s
  have ha := getTone_mono _ s hm (show m ≤ max m n + 1 by omega) _ _ ha
  have hb := getTone_mono _ s hm (show n ≤ max m n + 1 by omega) _ _ hb
  have hq := searchOk hL rounds s
  have hr := role_ok hL rounds s hs hq (max m n)
  have := c55_binary64 hL (registry rounds) s (f s) (registry_pairedF rounds s x f hx) (registry_delta64 rounds s x f hx)
    (max m n) a b (fun t ht => registry_ok hL rounds s hs hq _ _ (fun y v hv => hr y v hv) t ht)
    (fun t ht => registry_ok hL rounds s hs hq _ _ (fun y v hv => hr y v hv) t ht) (fun g t _ ht => (hr _ t ht).1)
    (fun k hk => registry_curve rounds _ k hk) (fun k hk => registry_curve rounds _ k hk) ha hb
  exact ⟨this.1, this.2.1, this.2.2.1⟩

/-- C59: in binary64, in every scheme with every contrast level, an accent role and its container are at least 9.9999
tones apart, the accent being the lighter one in dark and the darker one in light schemes, and neither tone lies in
[50, 60). -/
theorem c59_binary64_accents (hL : L.PowOk) (s : DynamicScheme 𝔻) (hs : Made s ∨ Assembled s) (x c : Role)
    (hx : (x, c) ∈ accents) (rounds m n : Nat) (tx tc : 𝔻) (h1 : getTone (registry rounds) s m x = some tx)
    (h2 : getTone (registry rounds) s n c = some tc) :
    (if s.isDark then val tc + 9.9999 ≤ val tx else val tx + 9.9999 ≤ val tc) ∧ ¬ Awkward (val tx) ∧ ¬ Awkward (val tc) := by
  have main (f : DynamicScheme 𝔻 → ToneDeltaPair Role 𝔻) (hf : (registry rounds x).toneDeltaPair = some f)
      (h0 : (f s).polarity = .nearer) (ea : (f s).roleA = c) (eb : (f s).roleB = x) :
      (if s.isDark then val tc + 9.9999 ≤ val tx else val tx + 9.9999 ≤ val tc) ∧ ¬ Awkward (val tx) ∧ ¬ Awkward (val tc) := by
    have := material_pair64 hL s (tonesOk_made hL s hs) rounds x f hf n m tc tx (by rw [ea]; exact h2) (by rw [eb]; exact h1)
    rw [h0] at this
    cases hk : s.isDark <;> rw [hk] at this <;> exact ⟨this.1, this.2.2, this.2.1⟩
  simp only [accents, List.mem_cons, Prod.mk.injEq, List.not_mem_nil, or_false] at hx
  rcases hx with ⟨rfl, rfl⟩ | ⟨rfl, rfl⟩ | ⟨rfl, rfl⟩ | ⟨rfl, rfl⟩ <;> exact main _ rfl rfl rfl rfl

/-- C59: in binary64, in every scheme with every contrast level, a fixed role is at least 9.9999 tones lighter than its
dimmed version, and neither tone lies in [50, 60). -/
theorem c59_binary64_fixed (hL : L.PowOk) (s : DynamicScheme 𝔻) (hs : Made s ∨ Assembled s) (x d : Role)
    (hx : (x, d) ∈ fixedPairs) (rounds m n : Nat) (tx td : 𝔻) (h1 : getTone (registry rounds) s m x = some tx)
    (h2 : getTone (registry rounds) s n d = some td) :
    val td + 9.9999 ≤ val tx ∧ ¬ Awkward (val tx) ∧ ¬ Awkward (val td) := by
  have main (f : DynamicScheme 𝔻 → ToneDeltaPair Role 𝔻) (hf : (registry rounds x).toneDeltaPair = some f)
      (h0 : (f s).polarity = .lighter) (ea : (f s).roleA = x) (eb : (f s).roleB = d) :
      val td + 9.9999 ≤ val tx ∧ ¬ Awkward (val tx) ∧ ¬ Awkward (val td) := by
    have := material_pair64 hL s (tonesOk_made hL s hs) rounds x f hf m n tx td (by rw [ea]; exact h1) (by rw [eb]; exact h2)
    rw [h0] at this
    cases hk : s.isDark <;> rw [hk] at this <;> exact this
  simp only [fixedPairs, List.mem_cons, Prod.mk.injEq, List.not_mem_nil, or_false] at hx
  rcases hx with ⟨rfl, rfl⟩ | ⟨rfl, rfl⟩ | ⟨rfl, rfl⟩ <;> exact main _ rfl rfl rfl rfl

/-! ## The surfaces -/

/-- A literal that is a multiple of one half is exact. -/
theorem half_lit {m e : ℕ} (h : 10 ^ e ∣ 2 * m) (hm : m ≤ 10000) :
    Is (OfScientific.ofScientific m true e : 𝔻) (OfScientific.ofScientific m true e : ℝ) := by
  obtain ⟨n, hn⟩ := h
  have hp : 0 < 10 ^ e := by positivity
  have hn' : n ≤ 20000 := by
    have : n ≤ 10 ^ e * n := Nat.le_mul_of_pos_left n hp
    omega
  have ev : (OfScientific.ofScientific m true e : ℝ) = (n : ℤ) / 2 := by
    have : (2 * m : ℝ) = 10 ^ e * n := by exact_mod_cast hn
    have h10 : (10 : ℝ) ^ e ≠ 0 := by positivity
    rw [← Rat.cast_ofScientific, show (OfScientific.ofScientific m true e : ℚ) = Rat.ofScientific m true e from rfl,
      Rat.ofScientific_def, if_pos rfl, Rat.mkRat_eq_div]
    push_cast
    field_simp
    linarith
  have hr : Rep (((n : ℤ) : ℝ) / 2) := ⟨n, -1, by rw [Nat.abs_cast]; norm_num; omega, by norm_num, by norm_num; ring⟩
  have := is_lit (L := L) (m := m) (s := true) (e := e) rfl (by
    rw [ev, abs_of_nonneg (by positivity)]
    have : (n : ℝ) ≤ 20000 := by exact_mod_cast hn'
    have h2 : (2 : ℝ) ^ 20 ≤ 2 ^ 1000 := pow_le_pow_right₀ (by norm_num) (by norm_num)
    refine le_trans ?_ h2
    norm_num
    linarith)
  rwa [ev, hr.rnd_eq, ← ev] at this

theorem curve_transfer {a b c d : 𝔻} {a' b' c' d' : ℝ} (ha : Is a a') (hb : Is b b') (hc : Is c c') (hd : Is d d')
    (h : (|a'| ≤ 100 ∧ |b'| ≤ 100) ∧ |c'| ≤ 100 ∧ |d'| ≤ 100) (x : 𝔻) :
    Ap ((curve a b c d).get x) ((curve a' b' c' d').get (levelOf x)) (1 / 10 ^ 9) := by
  have f {y : 𝔻} {v : ℝ} (hy : Is y v) (hv : |v| ≤ 100) : Fin y ∧ |val y| ≤ 100 :=
    ⟨hy.1, by rw [show val y = v from hy.2]; exact hv⟩
  have hk : CurveFin (curve a b c d) := ⟨f ha h.1.1, f hb h.1.2, f hc h.2.1, f hd h.2.2⟩
  have := ap_get (curve a b c d) hk x
  rwa [show realCurve (curve a b c d) = curve a' b' c' d' by
    simp only [realCurve, curve, show val a = a' from ha.2, show val b = b' from hb.2, show val c = c' from hc.2,
      show val d = d' from hd.2]] at this

/-- The scheme over the reals with the same mode and contrast level; its colours do not matter for surfaces. -/
noncomputable def shadow (s : DynamicScheme 𝔻) : DynamicScheme ℝ :=
  DynamicScheme.new 0 s.variant (some (levelOf s.contrastLevel)) s.isDark (TonalPalette.of 0 0) (TonalPalette.of 0 0)
    (TonalPalette.of 0 0) (TonalPalette.of 0 0) (TonalPalette.of 0 0)

/-- The tone of a surface in binary64 is within 10⁻⁹ of that over the reals. -/
theorem surface_transfer (s : DynamicScheme 𝔻) (b : Role) (hb : b ∈ Role.surfaceVariant :: surfaces) (rounds n : Nat) (t : 𝔻)
    (h : getTone (registry rounds) s n b = some t) :
    ∃ t', getTone (registry rounds) (shadow s) n b = some t' ∧ Ap t t' (1 / 10 ^ 9) := by
  have lit {m e : ℕ} (h : 10 ^ e ∣ 2 * m) (hm : m ≤ 10000) :
      Ap (OfScientific.ofScientific m true e : 𝔻) (OfScientific.ofScientific m true e : ℝ) (1 / 10 ^ 9) :=
    (half_lit h hm).ap.weaken (by norm_num)
  have go (f : DynamicScheme 𝔻 → (Role → Option 𝔻) → Option 𝔻) (f' : DynamicScheme ℝ → (Role → Option ℝ) → Option ℝ)
      (h0 : (registry (F := 𝔻) rounds b).toneDeltaPair = none) (h1 : (registry (F := 𝔻) rounds b).background = none)
      (h0' : (registry (F := ℝ) rounds b).toneDeltaPair = none) (h1' : (registry (F := ℝ) rounds b).background = none)
      (e : (registry (F := 𝔻) rounds b).tone = f) (e' : (registry (F := ℝ) rounds b).tone = f')
      (key : ∀ g g' v, f s g = some v → ∃ v', f' (shadow s) g' = some v' ∧ Ap v v' (1 / 10 ^ 9)) :
      ∃ t', getTone (registry rounds) (shadow s) n b = some t' ∧ Ap t t' (1 / 10 ^ 9) := by
    obtain ⟨m, rfl, hm⟩ := plain_invF (registry rounds) s b n t h0 h1 h
    rw [e] at hm
    obtain ⟨v', hv', ha⟩ := key _ (getTone (registry rounds) (shadow s) m) t hm
    refine ⟨v', ?_, ha⟩
    rw [getTone]
    simp only [h0', h1', e', hv', Option.bind_eq_bind, Option.bind_some]
  simp only [surfaces, List.mem_cons, List.not_mem_nil, or_false] at hb
  rcases hb with rfl | rfl | rfl | rfl | rfl | rfl | rfl | rfl | rfl | rfl <;>
    (refine go _ _ rfl rfl rfl rfl rfl rfl fun g g' v hv => ?_
     cases hd : s.isDark <;>
       (have hd' : (shadow s).isDark = s.isDark := rfl
        simp only [registry, Material.background, surface, surfaceVariant, surfaceDim, surfaceBright, surfaceContainerLowest,
          surfaceContainerLow, surfaceContainer, surfaceContainerHigh, surfaceContainerHighest,
          hd', hd, if_true, Bool.false_eq_true, if_false, Option.some.injEq] at hv ⊢
        refine ⟨_, rfl, ?_⟩
        rw [← hv]
        first
        | exact lit (by norm_num) (by norm_num)
        | exact curve_transfer (half_lit (by norm_num) (by norm_num)) (half_lit (by norm_num) (by norm_num))
            (half_lit (by norm_num) (by norm_num)) (half_lit (by norm_num) (by norm_num)) (by norm_num [abs_of_pos]) _))

/-! ## C76 -/

/-- C76: in binary64, with every contrast level, each surface of a dark scheme is at least 1.99 tones lighter than the
one before. -/
theorem c76_binary64_dark (s : DynamicScheme 𝔻) (hd : s.isDark = true) (a b : Role)
    (h : (a, b) ∈ darkSurfaces.zip darkSurfaces.tail) (rounds m n : Nat) (ta tb : 𝔻)
    (ha : getTone (registry rounds) s m a = some ta) (hb : getTone (registry rounds) s n b = some tb) :
    val ta + 1.99 ≤ val tb := by
  have mem : a ∈ surfaces ∧ b ∈ surfaces := by
    revert h; cases a <;> cases b <;> decide
  obtain ⟨a', ha', u, iu, hu⟩ := surface_transfer s a (List.mem_cons_of_mem _ mem.1) rounds m ta ha
  obtain ⟨b', hb', v, iv, hv⟩ := surface_transfer s b (List.mem_cons_of_mem _ mem.2) rounds n tb hb
  have := c76_dark (shadow s) hd a b h rounds m n a' b' ha' hb'
  have hu := abs_le.1 hu
  have hv := abs_le.1 hv
  rw [show val ta = u from iu.2, show val tb = v from iv.2]
  norm_num at hu hv ⊢
  linarith [hu.1, hu.2, hv.1, hv.2]

/-- C76: in binary64, with every contrast level, each surface of a light scheme is at least 1.99 tones darker than the
one before. -/
theorem c76_binary64_light (s : DynamicScheme 𝔻) (hd : s.isDark = false) (a b : Role)
    (h : (a, b) ∈ lightSurfaces.zip lightSurfaces.tail) (rounds m n : Nat) (ta tb : 𝔻)
    (ha : getTone (registry rounds) s m a = some ta) (hb : getTone (registry rounds) s n b = some tb) :
    val tb + 1.99 ≤ val ta := by
  have mem : a ∈ surfaces ∧ b ∈ surfaces := by
    revert h; cases a <;> cases b <;> decide
  obtain ⟨a', ha', u, iu, hu⟩ := surface_transfer s a (List.mem_cons_of_mem _ mem.1) rounds m ta ha
  obtain ⟨b', hb', v, iv, hv⟩ := surface_transfer s b (List.mem_cons_of_mem _ mem.2) rounds n tb hb
  have := c76_light (shadow s) hd a b h rounds m n a' b' ha' hb'
  have hu := abs_le.1 hu
  have hv := abs_le.1 hv
  rw [show val ta = u from iu.2, show val tb = v from iv.2]
  norm_num at hu hv ⊢
  linarith [hu.1, hu.2, hv.1, hv.2]

/-! ## C58 -/

theorem adjusted_ge64 (hL : L.PowOk) (dec : Bool) {bg r i : 𝔻} {k : ℝ} (hb : Fin bg) (hi : Fin i) (hr : RatioOk r)
    (hk : k ≤ 4.53) (hkr : k ≤ val r) : k ≤ val (ratioOfTones (adjustedF dec bg r i) bg) := by
  unfold adjustedF
  split
  · exact fg_ge64 hL hb hr hk hkr
  · unfold goodEnough
    split
    · next h =>
      rw [ratio_comm hi hb]
      exact hkr.trans (((is_of r hr.1).le_iff (is_of _ (c17_binary64 bg i (fin_num hb) (fin_num hi)).1)).1 h)
    · exact fg_ge64 hL hb hr hk hkr

theorem adjusted_above64 (hL : L.PowOk) (dec : Bool) {bg r i : 𝔻} (hb : Tone bg) (h : val bg ≤ 45) (hi : val bg ≤ val i)
    (hr : RatioOk r) : val bg ≤ val (adjustedF dec bg r i) := by
  unfold adjustedF goodEnough
  split
  · exact fg_light64 hL hb h hr
  · split
    · exact hi
    · exact fg_light64 hL hb h hr

theorem adjusted_below64 (hL : L.PowOk) (dec : Bool) {bg r i : 𝔻} (hb : Tone bg) (h : 60 ≤ val bg) (hi : val i ≤ val bg)
    (hr : RatioOk r) : val (adjustedF dec bg r i) ≤ val bg := by
  unfold adjustedF goodEnough
  split
  · exact fg_dark64 hL hb h hr
  · split
    · exact hi
    · exact fg_dark64 hL hb h hr

/-- Text drawn on the lightest of some dark surfaces is readable on all of them. -/
theorem readable_dark64 (hL : L.PowOk) (dec : Bool) {top b r i : 𝔻} {k : ℝ} (ht : Tone top) (h1 : val top ≤ 45) (hb : Fin b)
    (hbt : val b ≤ val top) (hi : ToneOk i) (hit : val top ≤ val i) (hk : k ≤ 4.53) (hr : RatioOk r) (hkr : k ≤ val r) :
    k ≤ val (ratioOfTones (adjustedF dec top r i) b) :=
  (adjusted_ge64 hL dec ht.1 hi.1 hr hk hkr).trans
    (c17_binary64_monotone _ _ _ _ (adjusted_ok hL dec ht.1 hi hr).1 (adjusted_ok hL dec ht.1 hi hr).1 ht.1 hb
      (adjusted_above64 hL dec ht h1 hit hr) le_rfl hbt)

/-- Text drawn on the darkest of some light surfaces is readable on all of them. -/
theorem readable_light64 (hL : L.PowOk) (dec : Bool) {top b r i : 𝔻} {k : ℝ} (ht : Tone top) (h1 : 60 ≤ val top) (hb : Fin b)
    (hbt : val top ≤ val b) (hi : ToneOk i) (hit : val i ≤ val top) (hk : k ≤ 4.53) (hr : RatioOk r) (hkr : k ≤ val r) :
    k ≤ val (ratioOfTones (adjustedF dec top r i) b) := by
  have ha := (adjusted_ok hL dec ht.1 hi hr).1
  refine (adjusted_ge64 hL dec ht.1 hi.1 hr hk hkr).trans ?_
  rw [ratio_comm ha ht.1, ratio_comm ha hb]
  exact c17_binary64_monotone _ _ _ _ ht.1 hb ha ha (adjusted_below64 hL dec ht h1 hit hr) hbt le_rfl

theorem strong64 (x : 𝔻) : RatioOk ((curve (4.5 : 𝔻) 7.0 11.0 21.0).get x) ∧
    4.5 - 1 / 10 ^ 9 ≤ val ((curve (4.5 : 𝔻) 7.0 11.0 21.0).get x) := by
  have hk : RatioCurve (curve (4.5 : 𝔻) 7.0 11.0 21.0) := by constructor <;> exact ratio_lit (by norm_num)
  refine ⟨(curve_ratioOk hk x).1, ?_⟩
  obtain ⟨v, iv, hv⟩ := curve_transfer (L := L) (half_lit (by norm_num) (by norm_num)) (half_lit (by norm_num) (by norm_num))
    (half_lit (by norm_num) (by norm_num)) (half_lit (by norm_num) (by norm_num))
    (by norm_num [abs_of_pos]) x (a := 4.5) (b := 7.0) (c := 11.0) (d := 21.0)
  have := strong_curve (levelOf x)
  rw [show val _ = v from iv.2]
  linarith [(abs_le.1 hv).1]

theorem weak64 (x : 𝔻) : RatioOk ((curve (3.0 : 𝔻) 4.5 7.0 11.0).get x) ∧
    3 - 1 / 10 ^ 9 ≤ val ((curve (3.0 : 𝔻) 4.5 7.0 11.0).get x) ∧
    (¬ x < 0.0 → 4.5 - 1 / 10 ^ 9 ≤ val ((curve (3.0 : 𝔻) 4.5 7.0 11.0).get x)) := by
  have hk : RatioCurve (curve (3.0 : 𝔻) 4.5 7.0 11.0) := by constructor <;> exact ratio_lit (by norm_num)
  refine ⟨(curve_ratioOk hk x).1, ?_⟩
  obtain ⟨v, iv, hv⟩ := curve_transfer (L := L) (half_lit (by norm_num) (by norm_num)) (half_lit (by norm_num) (by norm_num))
    (half_lit (by norm_num) (by norm_num)) (half_lit (by norm_num) (by norm_num))
    (by norm_num [abs_of_pos]) x (a := 3.0) (b := 4.5) (c := 7.0) (d := 11.0)
  have := weak_curve (levelOf x)
  rw [show val _ = v from iv.2, level_lt l0 (by norm_num) (by norm_num), not_lt]
  exact ⟨by linarith [(abs_le.1 hv).1, this.1], fun h => by linarith [(abs_le.1 hv).1, this.2 h]⟩

/-- C58: in binary64, in every scheme, dark or light, with every contrast level, the text on an accent role or its
container and on the inverse surface has a contrast of at least 4.5, up to 10⁻⁹. -/
theorem c58_binary64_accents (hL : L.PowOk) (s : DynamicScheme 𝔻) (hs : Made s ∨ Assembled s) (x b : Role)
    (hx : (x, b) ∈ onAccents) (rounds m n : Nat) (tx tb : 𝔻) (h1 : getTone (registry rounds) s m x = some tx)
    (h2 : getTone (registry rounds) s n b = some tb) : 4.5 - 1 / 10 ^ 9 ≤ val (ratioOfTones tx tb) := by
  have hts := tonesOk_made hL s hs
  have hq := searchOk hL rounds s
  have hr := role_ok hL rounds s hts hq n b tb h2
  have hm := registry_mono (F := 𝔻) rounds s
  have main (h0 : (registry (F := 𝔻) rounds x).toneDeltaPair = none)
      (hb : (registry (F := 𝔻) rounds x).background = some (fun _ => b))
      (hb2 : (registry (F := 𝔻) rounds x).secondBackground = none)
      (hk : (registry (F := 𝔻) rounds x).contrastCurve = some (curve 4.5 7.0 11.0 21.0))
      (hbg : (registry (F := 𝔻) rounds x).isBackground = false) : 4.5 - 1 / 10 ^ 9 ≤ val (ratioOfTones tx tb) := by
    obtain ⟨m', b', i, rfl, hb', hi, rfl⟩ := single_invF (registry rounds) s x m tx _ _ h0 hb hb2 hk hbg h1
    have := getTone_unique _ s hm hb' h2
    subst this
    have hi := registry_ok hL rounds s hts hq x _ (fun y v hv => role_ok hL rounds s hts hq m' y v hv) i hi
    exact adjusted_ge64 hL _ hr.1 hi.1 (strong64 _).1 (by norm_num) (strong64 _).2
  simp only [onAccents, List.mem_cons, Prod.mk.injEq, List.not_mem_nil, or_false] at hx
  rcases hx with ⟨rfl, rfl⟩ | ⟨rfl, rfl⟩ | ⟨rfl, rfl⟩ | ⟨rfl, rfl⟩ | ⟨rfl, rfl⟩ | ⟨rfl, rfl⟩ | ⟨rfl, rfl⟩ |
    ⟨rfl, rfl⟩ | ⟨rfl, rfl⟩ <;> exact main rfl rfl rfl rfl rfl

/-- Every surface but the one with the least contrast has at least two tones more of it. -/
theorem surface_gap (s : DynamicScheme ℝ) (b : Role) (hb : b ∈ surfaces) (hne : b ≠ highestSurface s) (rounds n : Nat) (t : ℝ)
    (h : getTone (registry rounds) s n b = some t) :
    (s.isDark = true → t + 2 ≤ topTone s) ∧ (s.isDark = false → topTone s + 2 ≤ t) := by
  have u2 := unit_range (2 * s.contrastLevel)
  have u3 := unit_range (2 * s.contrastLevel - 1)
  simp only [surfaces, List.mem_cons, List.not_mem_nil, or_false] at hb
  constructor <;> intro hd <;> simp only [topTone, highestSurface, hd, if_true, Bool.false_eq_true, if_false] at hne ⊢ <;>
    (rcases hb with rfl | rfl | rfl | rfl | rfl | rfl | rfl | rfl | rfl <;>
      first
      | exact absurd rfl hne
      | (replace h := (plain_inv (registry rounds) s _ n t rfl rfl h).choose_spec.2
         simp only [registry, Material.background, surface, surfaceDim, surfaceBright, surfaceContainerLowest,
           surfaceContainerLow, surfaceContainer, surfaceContainerHigh, surfaceContainerHighest, hd, if_true,
           Bool.false_eq_true, if_false, Option.some.injEq, curve_eq] at h
         rw [← h]
         norm_num
         linarith))

/-- The surface with the least contrast, and the others. -/
theorem surface64 (s : DynamicScheme 𝔻) (b : Role) (hb : b ∈ surfaces) (rounds m n : Nat) (top tb : 𝔻)
    (h1 : getTone (registry rounds) s m (highestSurface s) = some top) (h2 : getTone (registry rounds) s n b = some tb) :
    Tone top ∧ Fin tb ∧ (s.isDark = true → 23.9 ≤ val top ∧ val top ≤ 34.1 ∧ val tb ≤ val top) ∧
      (s.isDark = false → 74.9 ≤ val top ∧ val top ≤ 87.1 ∧ val top ≤ val tb) := by
  have hmem : highestSurface s ∈ surfaces := by
    unfold highestSurface; split <;> decide
  obtain ⟨a', ha', u, iu, hu⟩ := surface_transfer s _ (List.mem_cons_of_mem _ hmem) rounds m top h1
  obtain ⟨b', hb', v, iv, hv⟩ := surface_transfer s b (List.mem_cons_of_mem _ hb) rounds n tb h2
  have e := highest_tone (shadow s) rounds m a' ha'
  have hT := topTone_range (shadow s)
  have hd' : (shadow s).isDark = s.isDark := rfl
  rw [hd', ← e] at hT
  have hu := abs_le.1 hu
  have hv := abs_le.1 hv
  norm_num at hu hv
  have eu : val top = u := iu.2
  have ev : val tb = v := iv.2
  have ord : (s.isDark = true → v ≤ u) ∧ (s.isDark = false → u ≤ v) := by
    by_cases hne : b = highestSurface s
    · subst hne
      have := getTone_unique _ s (registry_mono (F := 𝔻) rounds s) h1 h2
      subst this
      rw [← eu, ← ev]; exact ⟨fun _ => le_rfl, fun _ => le_rfl⟩
    · have := surface_gap (shadow s) b hb hne rounds n b' hb'
      rw [hd', ← e] at this
      exact ⟨fun h => by linarith [this.1 h, hu.1, hu.2, hv.1, hv.2], fun h => by linarith [this.2 h, hu.1, hu.2, hv.1, hv.2]⟩
  rw [eu, ev]
  cases hd : s.isDark
  · obtain ⟨p, q⟩ := hT.2 hd
    refine ⟨iu.tone (by linarith) (by linarith), iv.1, (fun h => nomatch h), fun _ => ⟨?_, ?_, ord.2 hd⟩⟩ <;> norm_num <;> linarith
  · obtain ⟨p, q⟩ := hT.1 hd
    refine ⟨iu.tone (by linarith) (by linarith), iv.1, fun _ => ⟨?_, ?_, ord.1 hd⟩, (fun h => nomatch h)⟩ <;> norm_num <;> linarith

/-- C58: in binary64, text on any surface has a contrast of at least 4.5 with every contrast level; the less prominent
text has it with contrast levels that are not negative, and 3 with negative ones (all up to 10⁻⁹). -/
theorem c58_binary64_surfaces (hL : L.PowOk) (s : DynamicScheme 𝔻) (b : Role) (hb : b ∈ surfaces) (rounds m m' n : Nat)
    (tx tv tb : 𝔻) (h1 : getTone (registry rounds) s m .onSurface = some tx)
    (h1' : getTone (registry rounds) s m' .onSurfaceVariant = some tv) (h2 : getTone (registry rounds) s n b = some tb) :
    4.5 - 1 / 10 ^ 9 ≤ val (ratioOfTones tx tb) ∧ (¬ s.contrastLevel < 0.0 → 4.5 - 1 / 10 ^ 9 ≤ val (ratioOfTones tv tb)) ∧
      3 - 1 / 10 ^ 9 ≤ val (ratioOfTones tv tb) := by
  obtain ⟨k1, t1, i1, -, ht1, hi1, rfl⟩ := single_invF (registry rounds) s .onSurface m tx _ _ rfl rfl rfl rfl rfl h1
  obtain ⟨k2, t2, i2, -, ht2, hi2, rfl⟩ := single_invF (registry rounds) s .onSurfaceVariant m' tv _ _ rfl rfl rfl rfl rfl h1'
  obtain ⟨a1, a2, a3, a4⟩ := surface64 s b hb rounds _ n t1 tb ht1 h2
  have := getTone_unique _ s (registry_mono (F := 𝔻) rounds s) ht1 ht2
  subst this
  have q1 := strong64 s.contrastLevel
  have q2 := weak64 s.contrastLevel
  have lit {m e : ℕ} (h : 10 ^ e ∣ 2 * m) (hm : m ≤ 10000) : val (OfScientific.ofScientific m true e : 𝔻) =
      (OfScientific.ofScientific m true e : ℝ) := (half_lit h hm).2
  cases hd : s.isDark
  · obtain ⟨b1, b2, b3⟩ := a4 hd
    norm_num at b1 b2
    simp only [registry, onSurface, onSurfaceVariant, hd, Bool.false_eq_true, if_false, Option.some.injEq] at hi1 hi2
    subst hi1 hi2
    refine ⟨readable_light64 hL _ a1 (by linarith) a2 b3 (tone_lit (by norm_num)).ok ?_ (by norm_num) q1.1 q1.2,
      fun hc => readable_light64 hL _ a1 (by linarith) a2 b3 (tone_lit (by norm_num)).ok ?_ (by norm_num) q2.1 (q2.2.2 hc),
      readable_light64 hL _ a1 (by linarith) a2 b3 (tone_lit (by norm_num)).ok ?_ (by norm_num) q2.1 q2.2.1⟩ <;>
      (rw [lit (by norm_num) (by norm_num)]; norm_num; linarith)
  · obtain ⟨b1, b2, b3⟩ := a3 hd
    norm_num at b1 b2
    simp only [registry, onSurface, onSurfaceVariant, hd, if_true, Option.some.injEq] at hi1 hi2
    subst hi1 hi2
    refine ⟨readable_dark64 hL _ a1 (by linarith) a2 b3 (tone_lit (by norm_num)).ok ?_ (by norm_num) q1.1 q1.2,
      fun hc => readable_dark64 hL _ a1 (by linarith) a2 b3 (tone_lit (by norm_num)).ok ?_ (by norm_num) q2.1 (q2.2.2 hc),
      readable_dark64 hL _ a1 (by linarith) a2 b3 (tone_lit (by norm_num)).ok ?_ (by norm_num) q2.1 q2.2.1⟩ <;>
      (rw [lit (by norm_num) (by norm_num)]; norm_num; linarith)

/-- C58: in binary64, text on the background has a contrast of at least 4.5 with contrast levels that are not negative,
and of at least 3 with negative ones (all up to 10⁻⁹). -/
theorem c58_binary64_background (hL : L.PowOk) (s : DynamicScheme 𝔻) (rounds m n : Nat) (tx tb : 𝔻)
    (h1 : getTone (registry rounds) s m .onBackground = some tx) (h2 : getTone (registry rounds) s n .background = some tb) :
    (¬ s.contrastLevel < 0.0 → 4.5 - 1 / 10 ^ 9 ≤ val (ratioOfTones tx tb)) ∧ 3 - 1 / 10 ^ 9 ≤ val (ratioOfTones tx tb) := by
  have hm := registry_mono (F := 𝔻) rounds s
  have hkc : RatioCurve (curve (3.0 : 𝔻) 3.0 4.5 7.0) := by constructor <;> exact ratio_lit (by norm_num)
  have lit {m e : ℕ} (h : 10 ^ e ∣ 2 * m) (hm : m ≤ 10000) : val (OfScientific.ofScientific m true e : 𝔻) =
      (OfScientific.ofScientific m true e : ℝ) := (half_lit h hm).2
  obtain ⟨hk, hk'⟩ := curve_ratioOk hkc s.contrastLevel
  have hk' := hk' 3 7 (by
    simp only [curve]
    rw [lit (by norm_num) (by norm_num), lit (by norm_num) (by norm_num), lit (by norm_num) (by norm_num)]; norm_num) (by
    simp only [curve]
    rw [lit (by norm_num) (by norm_num), lit (by norm_num) (by norm_num), lit (by norm_num) (by norm_num)]; norm_num)
  obtain ⟨m', b', i, rfl, hb', hi, rfl⟩ := single_invF (registry rounds) s .onBackground m tx _ _ rfl rfl rfl rfl rfl h1
  have := getTone_unique _ s hm hb' h2
  subst this
  replace h2 := (plain_invF (registry rounds) s _ n _ rfl rfl h2).choose_spec.2
  have hv : (Is b' 6 ∧ Is i 90) ∨ (Is b' 98 ∧ Is i 10) := by
    cases hd : s.isDark <;>
      simp only [registry, Material.background, onBackground, hd, if_true, Bool.false_eq_true, if_false, Option.some.injEq] at h2 hi
    · right; rw [← h2, ← hi]
      exact ⟨by simpa using Binary64.lit (L := L) 980 1 true 98 (by norm_num) (by norm_num), l10⟩
    · left; rw [← h2, ← hi]
      exact ⟨by simpa using Binary64.lit (L := L) 60 1 true 6 (by norm_num) (by norm_num),
        by simpa using Binary64.lit (L := L) 900 1 true 90 (by norm_num) (by norm_num)⟩
  have hf : Fin b' ∧ Fin i := by rcases hv with ⟨a, b⟩ | ⟨a, b⟩ <;> exact ⟨a.1, b.1⟩
  refine ⟨fun hc => ?_, adjusted_ge64 hL _ hf.1 hf.2 hk (by norm_num) hk'.1⟩
  have h7 : 7.1 - 1 / 10 ^ 6 ≤ val (ratioOfTones b' i) := by
    rcases hv with ⟨ib, ii⟩ | ⟨ib, ii⟩
    · have hr : 7.1 ≤ ratioOfTones (6 : ℝ) 90 := by
        rw [c17_symm]
        refine ratio_ge (by norm_num) (by norm_num) (by norm_num) ?_
        have := y_le (show (6 : ℝ) ≤ 9 by norm_num) (by norm_num)
        rw [y_cube (show (8 : ℝ) < 90 by norm_num)]
        norm_num at this ⊢
        linarith
      linarith [(abs_le.1 (ratio_near ib ii)).1]
    · have hr : 7.1 ≤ ratioOfTones (98 : ℝ) 10 := ratio_ge_cube (by norm_num) (by norm_num) (by norm_num) (by norm_num)
      linarith [(abs_le.1 (ratio_near ib ii)).1]
  have hc' : decide (s.contrastLevel < 0.0) = false := decide_eq_false hc
  have hge : ratioOfTones b' i ≥ (curve (3.0 : 𝔻) 3.0 4.5 7.0).get s.contrastLevel := by
    refine ((is_of _ hk.1).le_iff (is_of _ (c17_binary64 b' i (fin_num hf.1) (fin_num hf.2)).1)).2 ?_
    norm_num at h7 hk' ⊢
    linarith [hk'.2]
  rw [hc', adjustedF, if_neg (by simp), goodEnough, if_pos hge, ratio_comm hf.2 hf.1]
  norm_num at h7 ⊢
  linarith

/-- C58: in binary64, the text on the surface variant of a light scheme has a contrast of at least 4.5 with contrast
levels that are not negative, and of at least 3 with negative ones (all up to 10⁻⁹). -/
theorem c58_binary64_surface_variant_partial (hL : L.PowOk) (s : DynamicScheme 𝔻) (hd : s.isDark = false) (rounds m n : Nat)
    (tx tb : 𝔻) (h1 : getTone (registry rounds) s m .onSurfaceVariant = some tx)
    (h2 : getTone (registry rounds) s n .surfaceVariant = some tb) :
    (¬ s.contrastLevel < 0.0 → 4.5 - 1 / 10 ^ 9 ≤ val (ratioOfTones tx tb)) ∧ 3 - 1 / 10 ^ 9 ≤ val (ratioOfTones tx tb) := by
  obtain ⟨k1, t1, i1, -, ht1, hi1, rfl⟩ := single_invF (registry rounds) s .onSurfaceVariant m tx _ _ rfl rfl rfl rfl rfl h1
  replace h2 := (plain_invF (registry rounds) s _ n _ rfl rfl h2).choose_spec.2
  have q2 := weak64 s.contrastLevel
  have hs : highestSurface s ∈ surfaces := by unfold highestSurface; split <;> decide
  obtain ⟨a1, -, -, a4⟩ := surface64 s _ hs rounds _ _ t1 t1 ht1 ht1
  obtain ⟨b1, b2, -⟩ := a4 hd
  norm_num at b1 b2
  have lit {m e : ℕ} (h : 10 ^ e ∣ 2 * m) (hm : m ≤ 10000) : Is (OfScientific.ofScientific m true e : 𝔻)
      (OfScientific.ofScientific m true e : ℝ) := half_lit h hm
  simp only [registry, onSurfaceVariant, surfaceVariant, hd, Bool.false_eq_true, if_false, Option.some.injEq] at hi1 h2
  subst hi1 h2
  have i90 := lit (m := 900) (e := 1) (by norm_num) (by norm_num)
  have i30 := lit (m := 300) (e := 1) (by norm_num) (by norm_num)
  refine ⟨fun hc => readable_light64 hL _ a1 (by linarith) i90.1 ?_ (tone_lit (by norm_num)).ok ?_ (by norm_num) q2.1 (q2.2.2 hc),
    readable_light64 hL _ a1 (by linarith) i90.1 ?_ (tone_lit (by norm_num)).ok ?_ (by norm_num) q2.1 q2.2.1⟩
  all_goals first
    | (rw [show val _ = _ from i90.2]; norm_num; linarith)
    | (rw [show val _ = _ from i30.2]; norm_num; linarith)

/-- The hypotheses are met, in binary64 with an accurate library of elementary functions, by a scheme of the library. -/
example : ∃ (L : Libm) (s : DynamicScheme (F64 L)) (t u v w : F64 L), L.PowOk ∧ Made s ∧
    getTone (registry 0) s 3 .primary = some t ∧ getTone (registry 0) s 3 .primaryContainer = some u ∧
    getTone (registry 0) s 3 .onPrimary = some v ∧ getTone (registry 0) s 3 .surfaceDim = some w := by
  obtain ⟨L, hL⟩ := powOk_exists
  have hm : Made (Schemes.tonalSpot (Hct.fromInt 0xFF4285F4) true (0.5 : F64 L)) := ⟨.tonalSpot, _, _, _, rfl⟩
  obtain ⟨t, ht⟩ := c56_total_without_search (Schemes.tonalSpot (Hct.fromInt 0xFF4285F4) true (0.5 : F64 L)) .primary (Or.inl (by decide))
  obtain ⟨u, hu⟩ := c56_total_without_search (Schemes.tonalSpot (Hct.fromInt 0xFF4285F4) true (0.5 : F64 L)) .primaryContainer (Or.inl (by decide))
  obtain ⟨v, hv⟩ := c56_total_without_search (Schemes.tonalSpot (Hct.fromInt 0xFF4285F4) true (0.5 : F64 L)) .onPrimary (Or.inl (by decide))
  obtain ⟨w, hw⟩ := c56_total_without_search (Schemes.tonalSpot (Hct.fromInt 0xFF4285F4) true (0.5 : F64 L)) .surfaceDim (Or.inl (by decide))
  exact ⟨L, _, t, u, v, w, hL, hm, ht 0 3 le_rfl, hu 0 3 le_rfl, hv 0 3 le_rfl, hw 0 3 le_rfl⟩

end Mcu.Props.Binary64
