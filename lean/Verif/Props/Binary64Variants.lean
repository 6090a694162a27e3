import Verif.Props.Binary64Hue
import Verif.Props.Binary64Palettes
import Verif.Props.Schemes
import Verif.Props.Binary64Temperature
import Verif.Lemmas.Witness

/-! Property C63 in IEEE-754 binary64: the palettes of the scheme variants; and the colour for which C42 is false. -/

namespace Mcu.Props.Binary64

open Mcu.Ieee MathUtils ColorUtils Lemmas SchemeSpec DynamicScheme TemperatureSpec

variable {L : Libm}

local notation "𝔻" => F64 L

/-- `x` is a finite double from 0 to 360 which, up to whole turns and 2·10⁻¹² degrees, is `h` turned by `off` degrees. -/
def Turned64 (x : 𝔻) (h off : ℝ) : Prop := HueIn x ∧ ∃ k : ℤ, |val x - (h + off + 360 * k)| ≤ 2 / 10 ^ 12

/-- The palette's chroma is a finite double within `e` of `c`, and whatever has been read from the palette before, the colour of an
integer tone is the colour of the palette's hue and chroma and that tone. -/
def Reads64 (p : TonalPalette 𝔻) (c e : ℝ) : Prop :=
  (Fin p.chroma ∧ |val p.chroma - c| ≤ e) ∧
  ∀ (ops : List PaletteOp) (t : Int), ((afterReads p ops).get t).1 = (Hct.fromHct p.hue p.chroma (Fl.ofInt t)).toInt

/-- The palette's hue is `h` turned by `off` degrees, its chroma is exactly `c`. -/
def HasColors64 (p : TonalPalette 𝔻) (h off c : ℝ) : Prop := Turned64 p.hue h off ∧ Reads64 p c 0

/-- The five palettes of a scheme turn the hue `h` by the given degrees and have the given chroma. -/
structure Documented64 (s : DynamicScheme 𝔻) (h : ℝ) (pOff pChroma sOff sChroma tOff tChroma nOff nChroma nvOff
    nvChroma : ℝ) : Prop where
  primary : HasColors64 s.primaryPalette h pOff pChroma
  secondary : HasColors64 s.secondaryPalette h sOff sChroma
  tertiary : HasColors64 s.tertiaryPalette h tOff tChroma
  neutral : HasColors64 s.neutralPalette h nOff nChroma
  neutralVariant : HasColors64 s.neutralVariantPalette h nvOff nvChroma

/-- The scheme records what it was built from and has the fixed error palette. -/
structure Records64 (s : DynamicScheme 𝔻) (argb : Int) (v : Variant) (dark : Bool) (contrast : 𝔻) : Prop where
  source : s.sourceColorArgb = argb
  hct : s.sourceColorHct = Hct.fromInt argb
  variant : s.variant = v
  isDark : s.isDark = dark
  level : s.contrastLevel = contrast
  error : HasColors64 s.errorPalette 25 0 84

theorem reads_of (x c : 𝔻) {a : ℝ} (h : Is c a) : Reads64 (TonalPalette.of x c) a 0 :=
  ⟨⟨h.1, by rw [show val (TonalPalette.of x c).chroma = a from h.2]; simp⟩, fun ops t => c32_history_independent x c ops t⟩

theorem records64 (argb : Int) (v : Variant) (dark : Bool) (c : 𝔻) (p s t n nv : TonalPalette 𝔻) :
    Records64 (DynamicScheme.new argb v (some c) dark p s t n nv) argb v dark c := by
  refine ⟨rfl, rfl, rfl, rfl, rfl, ⟨⟨l25'.1, ?_⟩, 0, ?_⟩, reads_of _ _ l84'⟩
  · change 0 ≤ val (25.0 : 𝔻) ∧ val (25.0 : 𝔻) ≤ 360
    rw [show val (25.0 : 𝔻) = 25 from l25'.2]; norm_num
  · change |val (25.0 : 𝔻) - _| ≤ _
    rw [show val (25.0 : 𝔻) = 25 from l25'.2]; norm_num

theorem self64 {x c : 𝔻} {a : ℝ} (hx : HueIn x) (h : Is c a) : HasColors64 (TonalPalette.of x c) (val x) 0 a :=
  ⟨⟨hx, 0, by change |val x - _| ≤ _; norm_num⟩, reads_of _ _ h⟩

theorem up64 {x y c : 𝔻} {a b : ℝ} (hx : HueIn x) (hy : Is y b) (hb : |b| ≤ 600) (h : Is c a) :
    HasColors64 (TonalPalette.of (sanitizeDegreesDouble (x + y)) c) (val x) b a := by
  have hb := abs_le.1 hb
  exact ⟨turn64 (is_of x hx.1) hy (by rw [abs_le]; constructor <;> linarith [hx.2.1, hx.2.2]), reads_of _ _ h⟩

theorem down64 {x y c : 𝔻} {a b : ℝ} (hx : HueIn x) (hy : Is y b) (hb : |b| ≤ 600) (h : Is c a) :
    HasColors64 (TonalPalette.of (sanitizeDegreesDouble (x - y)) c) (val x) (-b) a := by
  have hb := abs_le.1 hb
  have := turn64_sub (is_of x hx.1) hy (by rw [abs_le]; constructor <;> linarith [hx.2.1, hx.2.2])
  rw [sub_eq_add_neg (val x)] at this
  exact ⟨this, reads_of _ _ h⟩

theorem k0 : Is (0.0 : 𝔻) 0 := by simpa using lit (L := L) 0 1 true 0 (by norm_num) (by norm_num)
theorem k10 : Is (10.0 : 𝔻) 10 := by simpa using lit (L := L) 100 1 true 10 (by norm_num) (by norm_num)
theorem k15 : Is (15.0 : 𝔻) 15 := by simpa using lit (L := L) 150 1 true 15 (by norm_num) (by norm_num)
theorem k32 : Is (32.0 : 𝔻) 32 := by simpa using lit (L := L) 320 1 true 32 (by norm_num) (by norm_num)
theorem k36 : Is (36.0 : 𝔻) 36 := by simpa using lit (L := L) 360 1 true 36 (by norm_num) (by norm_num)
theorem k40 : Is (40.0 : 𝔻) 40 := by simpa using lit (L := L) 400 1 true 40 (by norm_num) (by norm_num)
theorem k50 : Is (50.0 : 𝔻) 50 := by simpa using lit (L := L) 500 1 true 50 (by norm_num) (by norm_num)
theorem k200 : Is (200.0 : 𝔻) 200 := by simpa using lit (L := L) 2000 1 true 200 (by norm_num) (by norm_num)
theorem k240 : Is (240.0 : 𝔻) 240 := by simpa using lit (L := L) 2400 1 true 240 (by norm_num) (by norm_num)

/-- C63 (binary64): tonal spot. -/
theorem c63_binary64_tonal_spot (hS : L.Sound) (argb : Int) (dark : Bool) (c : 𝔻) :
    let s := Schemes.tonalSpot (Hct.fromInt argb) dark c
    Records64 s argb .tonalSpot dark c ∧
      Documented64 s (val (Hct.fromInt argb : Hct 𝔻).getHue) 0 36 0 16 60 24 0 6 0 8 := by
  have z := hue64 hS argb
  exact ⟨records64 .., ⟨self64 z k36, self64 z l16', up64 z l60' (by norm_num) l24', self64 z l6', self64 z l8'⟩⟩

/-- C63 (binary64): rainbow. -/
theorem c63_binary64_rainbow (hS : L.Sound) (argb : Int) (dark : Bool) (c : 𝔻) :
    let s := Schemes.rainbow (Hct.fromInt argb) dark c
    Records64 s argb .rainbow dark c ∧
      Documented64 s (val (Hct.fromInt argb : Hct 𝔻).getHue) 0 48 0 16 60 24 0 0 0 0 := by
  have z := hue64 hS argb
  exact ⟨records64 .., ⟨self64 z l48', self64 z l16', up64 z l60' (by norm_num) l24', self64 z k0, self64 z k0⟩⟩

/-- C63 (binary64): neutral. -/
theorem c63_binary64_neutral (hS : L.Sound) (argb : Int) (dark : Bool) (c : 𝔻) :
    let s := Schemes.neutral (Hct.fromInt argb) dark c
    Records64 s argb .neutral dark c ∧
      Documented64 s (val (Hct.fromInt argb : Hct 𝔻).getHue) 0 12 0 8 0 16 0 2 0 2 := by
  have z := hue64 hS argb
  exact ⟨records64 .., ⟨self64 z l12', self64 z l8', self64 z l16', self64 z l2', self64 z l2'⟩⟩

/-- C63 (binary64): monochrome. -/
theorem c63_binary64_monochrome (hS : L.Sound) (argb : Int) (dark : Bool) (c : 𝔻) :
    let s := Schemes.monochrome (Hct.fromInt argb) dark c
    Records64 s argb .monochrome dark c ∧
      Documented64 s (val (Hct.fromInt argb : Hct 𝔻).getHue) 0 0 0 0 0 0 0 0 0 0 := by
  have z := hue64 hS argb
  exact ⟨records64 .., ⟨self64 z k0, self64 z k0, self64 z k0, self64 z k0, self64 z k0⟩⟩

/-- C63 (binary64): fruit salad. -/
theorem c63_binary64_fruit_salad (hS : L.Sound) (argb : Int) (dark : Bool) (c : 𝔻) :
    let s := Schemes.fruitSalad (Hct.fromInt argb) dark c
    Records64 s argb .fruitSalad dark c ∧
      Documented64 s (val (Hct.fromInt argb : Hct 𝔻).getHue) (-50) 48 (-50) 36 0 36 0 10 0 16 := by
  have z := hue64 hS argb
  exact ⟨records64 .., ⟨down64 z k50 (by norm_num) l48', down64 z k50 (by norm_num) k36, self64 z k36, self64 z k10, self64 z l16'⟩⟩

/-! ## The rotations of the vibrant and the expressive variant -/

/-- The doubles of a list have the values of another list. -/
abbrev Lists (xs : List 𝔻) (as : List ℝ) : Prop := List.Forall₂ (fun (x : 𝔻) a => Is x a) xs as

theorem Lists.at {xs : List 𝔻} {as : List ℝ} (h : Lists xs as) {i : Nat} {a : ℝ} (ha : as[i]? = some a) :
    ∃ x, xs[i]? = some x ∧ Is x a := by
  induction h generalizing i with
  | nil => simp at ha
  | cons h _ ih =>
    cases i with
    | zero => simp only [List.getElem?_cons_zero, Option.some.injEq] at ha ⊢; exact ⟨_, rfl, ha ▸ h⟩
    | succ i => simp only [List.getElem?_cons_succ] at ha ⊢; exact ih ha

/-- The rotation for a hue strictly inside an interval of an ascending table. -/
theorem rotated64 (src : Hct 𝔻) {hues rotations : List 𝔻} {rh rr : List ℝ} (hh : Lists hues rh) (hr : Lists rotations rr)
    (hl : rh.length = rr.length) (hsort : rh.Pairwise (· ≤ ·)) (hb : ∀ r ∈ rr, |r| ≤ 360) (hs : HueIn src.getHue)
    (i : Nat) (a b r : ℝ) (ha : rh[i]? = some a) (hb' : rh[i + 1]? = some b) (hr' : rr[i]? = some r)
    (h1 : a < val src.getHue) (h2 : val src.getHue < b) :
    ∃ x, getRotatedHue src hues rotations = some x ∧ Turned64 x (val src.getHue) r := by
  obtain ⟨x, ex, ix⟩ := hh.at ha
  obtain ⟨y, ey, iy⟩ := hh.at hb'
  obtain ⟨z, ez, iz⟩ := hr.at hr'
  have vx : val x = a := ix.2
  have vy : val y = b := iy.2
  have vz : val z = r := iz.2
  obtain ⟨w, ew, h3, k, hk⟩ := c61_binary64_interval src hues rotations (by rw [hh.length_eq, hr.length_eq, hl]) i x y z ex ey ez hs
    iz.1 (by rw [vz]; exact hb r (List.mem_of_getElem? hr')) ix.1 iy.1 (by rw [vx]; exact h1) (by rw [vy]; exact h2) (by
      intro j hj a' b' _ eb' ⟨_, hlt⟩
      obtain ⟨hj1, ej⟩ := List.getElem?_eq_some_iff.1 eb'
      have hj2 : j + 1 < rh.length := by rw [← hh.length_eq]; exact hj1
      obtain ⟨b'', eb'', ib⟩ := hh.at (List.getElem?_eq_getElem hj2)
      rw [eb'] at eb''
      cases eb''
      rw [(is_of _ hs.1).lt_iff ib] at hlt
      obtain ⟨hi, ei⟩ := List.getElem?_eq_some_iff.1 ha
      have : rh[j + 1] ≤ a := by
        rcases Nat.lt_or_ge (j + 1) i with h | h
        · rw [← ei]; exact List.pairwise_iff_getElem.1 hsort _ _ hj2 hi h
        · have : j + 1 = i := by omega
          subst this; exact ei.le
      have hlt : val src.getHue < rh[j + 1] := hlt
      linarith)
  exact ⟨w, ew, h3, k, by rw [← vz]; exact hk⟩

local macro "lv%" m:num v:num : term => `(by simpa using lit (L := _) $m 1 true $v (by norm_num) (by norm_num))

theorem vibrant_lists :
    Lists (Schemes.vibrantHues : List 𝔻) [0, 41, 61, 101, 131, 181, 251, 301, 360] ∧
    Lists (Schemes.vibrantSecondaryRotations : List 𝔻) [18, 15, 10, 12, 15, 18, 15, 12, 12] ∧
    Lists (Schemes.vibrantTertiaryRotations : List 𝔻) [35, 30, 20, 25, 30, 35, 30, 25, 25] := by
  have j0 : Is (0.0 : 𝔻) 0 := k0
  have j41 : Is (41.0 : 𝔻) 41 := lv% 410 41
  have j61 : Is (61.0 : 𝔻) 61 := lv% 610 61
  have j101 : Is (101.0 : 𝔻) 101 := lv% 1010 101
  have j131 : Is (131.0 : 𝔻) 131 := lv% 1310 131
  have j181 : Is (181.0 : 𝔻) 181 := lv% 1810 181
  have j251 : Is (251.0 : 𝔻) 251 := lv% 2510 251
  have j301 : Is (301.0 : 𝔻) 301 := lv% 3010 301
  have j360 : Is (360.0 : 𝔻) 360 := lv% 3600 360
  have j18 : Is (18.0 : 𝔻) 18 := lv% 180 18
  have j15 : Is (15.0 : 𝔻) 15 := lv% 150 15
  have j10 : Is (10.0 : 𝔻) 10 := lv% 100 10
  have j12 : Is (12.0 : 𝔻) 12 := lv% 120 12
  have j35 : Is (35.0 : 𝔻) 35 := lv% 350 35
  have j30 : Is (30.0 : 𝔻) 30 := lv% 300 30
  have j20 : Is (20.0 : 𝔻) 20 := lv% 200 20
  have j25 : Is (25.0 : 𝔻) 25 := lv% 250 25
  refine ⟨?_, ?_, ?_⟩
  · exact .cons j0 (.cons j41 (.cons j61 (.cons j101 (.cons j131 (.cons j181 (.cons j251 (.cons j301 (.cons j360 .nil))))))))
  · exact .cons j18 (.cons j15 (.cons j10 (.cons j12 (.cons j15 (.cons j18 (.cons j15 (.cons j12 (.cons j12 .nil))))))))
  · exact .cons j35 (.cons j30 (.cons j20 (.cons j25 (.cons j30 (.cons j35 (.cons j30 (.cons j25 (.cons j25 .nil))))))))

theorem expressive_lists :
    Lists (Schemes.expressiveHues : List 𝔻) [0, 21, 51, 121, 151, 191, 271, 321, 360] ∧
    Lists (Schemes.expressiveSecondaryRotations : List 𝔻) [45, 95, 45, 20, 45, 90, 45, 45, 45] ∧
    Lists (Schemes.expressiveTertiaryRotations : List 𝔻) [120, 120, 20, 45, 20, 15, 20, 120, 120] := by
  have j0 : Is (0.0 : 𝔻) 0 := k0
  have j21 : Is (21.0 : 𝔻) 21 := lv% 210 21
  have j51 : Is (51.0 : 𝔻) 51 := lv% 510 51
  have j121 : Is (121.0 : 𝔻) 121 := lv% 1210 121
  have j151 : Is (151.0 : 𝔻) 151 := lv% 1510 151
  have j191 : Is (191.0 : 𝔻) 191 := lv% 1910 191
  have j271 : Is (271.0 : 𝔻) 271 := lv% 2710 271
  have j321 : Is (321.0 : 𝔻) 321 := lv% 3210 321
  have j360 : Is (360.0 : 𝔻) 360 := lv% 3600 360
  have j45 : Is (45.0 : 𝔻) 45 := lv% 450 45
  have j95 : Is (95.0 : 𝔻) 95 := lv% 950 95
  have j20 : Is (20.0 : 𝔻) 20 := lv% 200 20
  have j90 : Is (90.0 : 𝔻) 90 := lv% 900 90
  have j120 : Is (120.0 : 𝔻) 120 := lv% 1200 120
  have j15 : Is (15.0 : 𝔻) 15 := lv% 150 15
  refine ⟨?_, ?_, ?_⟩
  · exact .cons j0 (.cons j21 (.cons j51 (.cons j121 (.cons j151 (.cons j191 (.cons j271 (.cons j321 (.cons j360 .nil))))))))
  · exact .cons j45 (.cons j95 (.cons j45 (.cons j20 (.cons j45 (.cons j90 (.cons j45 (.cons j45 (.cons j45 .nil))))))))
  · exact .cons j120 (.cons j120 (.cons j20 (.cons j45 (.cons j20 (.cons j15 (.cons j20 (.cons j120 (.cons j120 .nil))))))))

/-- Both rotations of a row of a documented table. -/
theorem rows64 (src : Hct 𝔻) (hs : HueIn src.getHue) {hues r1 r2 : List 𝔻} {rh s1 s2 : List ℝ} (hh : Lists hues rh) (h1 : Lists r1 s1)
    (h2 : Lists r2 s2) (l1 : rh.length = s1.length) (l2 : rh.length = s2.length) (hsort : rh.Pairwise (· ≤ ·))
    (b1 : ∀ r ∈ s1, |r| ≤ 360) (b2 : ∀ r ∈ s2, |r| ≤ 360) (row : ℝ × ℝ × ℝ × ℝ)
    (hrow : ∃ i, rh[i]? = some row.1 ∧ rh[i + 1]? = some row.2.1 ∧ s1[i]? = some row.2.2.1 ∧ s2[i]? = some row.2.2.2)
    (g1 : row.1 < val src.getHue) (g2 : val src.getHue < row.2.1) :
    (∃ x, getRotatedHue src hues r1 = some x ∧ Turned64 x (val src.getHue) row.2.2.1) ∧
    ∃ x, getRotatedHue src hues r2 = some x ∧ Turned64 x (val src.getHue) row.2.2.2 := by
  obtain ⟨i, e1, e2, e3, e4⟩ := hrow
  exact ⟨rotated64 src hh h1 l1 hsort b1 hs i _ _ _ e1 e2 e3 g1 g2, rotated64 src hh h2 l2 hsort b2 hs i _ _ _ e1 e2 e4 g1 g2⟩

/-- C63 (binary64): vibrant, for source hues strictly inside one of the documented intervals. -/
theorem c63_binary64_vibrant (hS : L.Sound) (argb : Int) (dark : Bool) (c : 𝔻) (row : ℝ × ℝ × ℝ × ℝ) (hrow : row ∈ vibrantTable)
    (h1 : row.1 < val (Hct.fromInt argb : Hct 𝔻).getHue) (h2 : val (Hct.fromInt argb : Hct 𝔻).getHue < row.2.1) :
    ∃ s, Schemes.vibrant (Hct.fromInt argb) dark c = some s ∧ Records64 s argb .vibrant dark c ∧
      Documented64 s (val (Hct.fromInt argb : Hct 𝔻).getHue) 0 200 row.2.2.1 24 row.2.2.2 32 0 10 0 12 := by
  have z := hue64 hS argb
  obtain ⟨q1, q2, q3⟩ := vibrant_lists (L := L)
  obtain ⟨⟨x, ex, hx⟩, ⟨y, ey, hy⟩⟩ := rows64 (Hct.fromInt argb) z q1 q2 q3 rfl rfl (by norm_num) (by
    intro r hr; simp only [List.mem_cons, List.not_mem_nil, or_false] at hr
    rcases hr with rfl | rfl | rfl | rfl | rfl | rfl | rfl | rfl | rfl <;> norm_num) (by
    intro r hr; simp only [List.mem_cons, List.not_mem_nil, or_false] at hr
    rcases hr with rfl | rfl | rfl | rfl | rfl | rfl | rfl | rfl | rfl <;> norm_num) row (by
    simp only [vibrantTable, List.mem_cons, List.not_mem_nil, or_false] at hrow
    rcases hrow with rfl | rfl | rfl | rfl | rfl | rfl | rfl | rfl
    · exact ⟨0, rfl, rfl, rfl, rfl⟩
    · exact ⟨1, rfl, rfl, rfl, rfl⟩
    · exact ⟨2, rfl, rfl, rfl, rfl⟩
    · exact ⟨3, rfl, rfl, rfl, rfl⟩
    · exact ⟨4, rfl, rfl, rfl, rfl⟩
    · exact ⟨5, rfl, rfl, rfl, rfl⟩
    · exact ⟨6, rfl, rfl, rfl, rfl⟩
    · exact ⟨7, rfl, rfl, rfl, rfl⟩) h1 h2
  refine ⟨_, by simp only [Schemes.vibrant, ex, ey]; rfl, records64 .., ?_⟩
  exact ⟨self64 z k200, ⟨hx, reads_of _ _ l24'⟩, ⟨hy, reads_of _ _ k32⟩, self64 z k10, self64 z l12'⟩

/-- C63 (binary64): vibrant, for source hues strictly inside none of the documented intervals: nothing is turned. -/
theorem c63_binary64_vibrant_breakpoints (hS : L.Sound) (argb : Int) (dark : Bool) (c : 𝔻)
    (hno : ∀ row ∈ vibrantTable, ¬ (row.1 < val (Hct.fromInt argb : Hct 𝔻).getHue ∧ val (Hct.fromInt argb : Hct 𝔻).getHue < row.2.1)) :
    ∃ s, Schemes.vibrant (Hct.fromInt argb) dark c = some s ∧ Records64 s argb .vibrant dark c ∧
      Documented64 s (val (Hct.fromInt argb : Hct 𝔻).getHue) 0 200 0 24 0 32 0 10 0 12 := by
  have z := hue64 hS argb
  obtain ⟨q1, -, -⟩ := vibrant_lists (L := L)
  have hout : ∀ j a b, (Schemes.vibrantHues : List 𝔻)[j]? = some a → (Schemes.vibrantHues : List 𝔻)[j + 1]? = some b →
      ¬ (a < (Hct.fromInt argb : Hct 𝔻).getHue ∧ (Hct.fromInt argb : Hct 𝔻).getHue < b) := by
    intro j a b ha hb
    have hj : j + 1 < 9 := (List.getElem?_eq_some_iff.1 hb).1
    simp only [vibrantTable, List.mem_cons, List.not_mem_nil, or_false, forall_eq_or_imp, forall_eq] at hno
    obtain ⟨n0, n1, n2, n3, n4, n5, n6, n7⟩ := hno
    have key (i : Nat) (u w : ℝ) (h1 : ([0, 41, 61, 101, 131, 181, 251, 301, 360] : List ℝ)[i]? = some u)
        (h2 : ([0, 41, 61, 101, 131, 181, 251, 301, 360] : List ℝ)[i + 1]? = some w) (e : j = i)
        (n : ¬ (u < val (Hct.fromInt argb : Hct 𝔻).getHue ∧ val (Hct.fromInt argb : Hct 𝔻).getHue < w)) :
        ¬ (a < (Hct.fromInt argb : Hct 𝔻).getHue ∧ (Hct.fromInt argb : Hct 𝔻).getHue < b) := by
      subst e
      obtain ⟨x, ex, ix⟩ := q1.at h1
      obtain ⟨y, ey, iy⟩ := q1.at h2
      rw [ha] at ex; rw [hb] at ey
      cases ex; cases ey
      rw [ix.lt_iff (is_of _ z.1), (is_of _ z.1).lt_iff iy]
      exact n
    have : j = 0 ∨ j = 1 ∨ j = 2 ∨ j = 3 ∨ j = 4 ∨ j = 5 ∨ j = 6 ∨ j = 7 := by omega
    rcases this with h | h | h | h | h | h | h | h
    · exact key 0 _ _ rfl rfl h n0
    · exact key 1 _ _ rfl rfl h n1
    · exact key 2 _ _ rfl rfl h n2
    · exact key 3 _ _ rfl rfl h n3
    · exact key 4 _ _ rfl rfl h n4
    · exact key 5 _ _ rfl rfl h n5
    · exact key 6 _ _ rfl rfl h n6
    · exact key 7 _ _ rfl rfl h n7
  have ex := c61_outside_any (Hct.fromInt argb) Schemes.vibrantHues Schemes.vibrantSecondaryRotations rfl (by simp [Schemes.vibrantHues]) hout
  have ey := c61_outside_any (Hct.fromInt argb) Schemes.vibrantHues Schemes.vibrantTertiaryRotations rfl (by simp [Schemes.vibrantHues]) hout
  refine ⟨_, by simp only [Schemes.vibrant, ex, ey]; rfl, records64 .., ?_⟩
  exact ⟨self64 z k200, self64 z l24', self64 z k32, self64 z k10, self64 z l12'⟩

/-- C63 (binary64, partial): expressive, for source hues strictly inside one of the documented intervals.  The two neutral palettes have
the documented hue up to 2·10⁻¹² degrees, but it need not be an angle up to 360 (`c63_binary64_expressive_violated`). -/
theorem c63_binary64_expressive_partial (hS : L.Sound) (argb : Int) (dark : Bool) (c : 𝔻) (row : ℝ × ℝ × ℝ × ℝ)
    (hrow : row ∈ expressiveTable)
    (h1 : row.1 < val (Hct.fromInt argb : Hct 𝔻).getHue) (h2 : val (Hct.fromInt argb : Hct 𝔻).getHue < row.2.1) :
    let h := val (Hct.fromInt argb : Hct 𝔻).getHue
    ∃ s, Schemes.expressive (Hct.fromInt argb) dark c = some s ∧ Records64 s argb .expressive dark c ∧
      HasColors64 s.primaryPalette h 240 40 ∧ HasColors64 s.secondaryPalette h row.2.2.1 24 ∧
      HasColors64 s.tertiaryPalette h row.2.2.2 32 ∧
      (Fin s.neutralPalette.hue ∧ |val s.neutralPalette.hue - (h + 15)| ≤ 2 / 10 ^ 12 ∧ Reads64 s.neutralPalette 8 0) ∧
      (Fin s.neutralVariantPalette.hue ∧ |val s.neutralVariantPalette.hue - (h + 15)| ≤ 2 / 10 ^ 12 ∧ Reads64 s.neutralVariantPalette 12 0) := by
  intro h
  have z := hue64 hS argb
  obtain ⟨q1, q2, q3⟩ := expressive_lists (L := L)
  obtain ⟨⟨x, ex, hx⟩, ⟨y, ey, hy⟩⟩ := rows64 (Hct.fromInt argb) z q1 q2 q3 rfl rfl (by norm_num) (by
    intro r hr; simp only [List.mem_cons, List.not_mem_nil, or_false] at hr
    rcases hr with rfl | rfl | rfl | rfl | rfl | rfl | rfl | rfl | rfl <;> norm_num) (by
    intro r hr; simp only [List.mem_cons, List.not_mem_nil, or_false] at hr
    rcases hr with rfl | rfl | rfl | rfl | rfl | rfl | rfl | rfl | rfl <;> norm_num) row (by
    simp only [expressiveTable, List.mem_cons, List.not_mem_nil, or_false] at hrow
    rcases hrow with rfl | rfl | rfl | rfl | rfl | rfl | rfl | rfl
    · exact ⟨0, rfl, rfl, rfl, rfl⟩
    · exact ⟨1, rfl, rfl, rfl, rfl⟩
    · exact ⟨2, rfl, rfl, rfl, rfl⟩
    · exact ⟨3, rfl, rfl, rfl, rfl⟩
    · exact ⟨4, rfl, rfl, rfl, rfl⟩
    · exact ⟨5, rfl, rfl, rfl, rfl⟩
    · exact ⟨6, rfl, rfl, rfl, rfl⟩
    · exact ⟨7, rfl, rfl, rfl, rfl⟩) h1 h2
  obtain ⟨o1, o2⟩ := rnd_ok (v := h + 15) (by rw [abs_of_nonneg (by linarith [z.2.1])]; linarith [z.2.2])
  have n := (is_of _ z.1).add k15 o1
  have nv : |val ((Hct.fromInt argb : Hct 𝔻).getHue + 15.0) - (h + 15)| ≤ 2 / 10 ^ 12 := by
    rw [show val ((Hct.fromInt argb : Hct 𝔻).getHue + 15.0) = _ from n.2]
    exact o2.trans (by rw [show ρ = 1 / 10 ^ 12 from rfl]; norm_num)
  refine ⟨_, by simp only [Schemes.expressive, ex, ey]; rfl, records64 .., ?_⟩
  exact ⟨up64 z k240 (by norm_num) k40, ⟨hx, reads_of _ _ l24'⟩,
    ⟨hy, reads_of _ _ k32⟩, ⟨n.1, nv, reads_of _ _ l8'⟩, n.1, nv, reads_of _ _ l12'⟩

/-- C63 (binary64) is false for the expressive variant: the neutral hues of a purplish red exceed 360. -/
theorem c63_binary64_expressive_violated (hS : L.Sound) (hT : L.TempOk) (dark : Bool) (c : 𝔻) :
    ∃ s, Schemes.expressive (Hct.fromInt 0xFFFF008B) dark c = some s ∧ 360 < val s.neutralPalette.hue ∧
      360 < val s.neutralVariantPalette.hue := by
  have hw := witness_hue
  have near := (c83_hue_no_wrap hS hT 0xFFFF008B (by norm_num)).2
  have lt := (c27_binary64_not_black hS hT 0xFFFF008B (by norm_num)).2.2
  have near := abs_le.1 near
  have w1 : 359.5 < (Hct.fromInt 0xFFFF008B : Hct ℝ).getHue := hw.1
  have g : 359 < val (Hct.fromInt 0xFFFF008B : Hct 𝔻).getHue := by norm_num at w1 near ⊢; linarith
  obtain ⟨s, hs, -, -, -, -, ⟨-, hn, -⟩, -, hnv, -⟩ := c63_binary64_expressive_partial hS 0xFFFF008B dark c (321, 360, 45, 120)
    (by simp [expressiveTable]) (lt_trans (by norm_num) g) lt
  have hn := abs_le.1 hn
  have hnv := abs_le.1 hnv
  refine ⟨s, hs, ?_, ?_⟩
  · norm_num at hn ⊢; linarith
  · norm_num at hnv ⊢; linarith

/-! ## Content and fidelity -/

/-- The palettes the content and fidelity variants share; the chromas are those documented up to a rounding error. -/
structure DocumentedContent64 (s : DynamicScheme 𝔻) (h k : ℝ) : Prop where
  primary : HasColors64 s.primaryPalette h 0 k
  secondary : Turned64 s.secondaryPalette.hue h 0 ∧ Reads64 s.secondaryPalette (max (k - 32) (k / 2)) ((k + 32) / 10 ^ 15)
  neutral : Turned64 s.neutralPalette.hue h 0 ∧ Reads64 s.neutralPalette (k / 8) ((k + 32) / 10 ^ 15)
  neutralVariant : Turned64 s.neutralVariantPalette.hue h 0 ∧ Reads64 s.neutralVariantPalette (k / 8 + 4) ((k + 32) / 10 ^ 15)

theorem near_max {a b a' b' e : ℝ} (h1 : |a' - a| ≤ e) (h2 : |b' - b| ≤ e) : |max a' b' - max a b| ≤ e :=
  (abs_max_sub_max_le_max a' b' a b).trans (max_le h1 h2)

theorem rnd_scaled {v K : ℝ} (h0 : |v| ≤ K) (h1 : 32 ≤ K) : |rnd v - v| ≤ K / (4 * 10 ^ 15) := by
  refine (rnd_any v).trans ?_
  norm_num
  linarith

theorem reads_near (x : 𝔻) {c : 𝔻} {a b e : ℝ} (h : Is c a) (hb : |a - b| ≤ e) : Reads64 (TonalPalette.of x c) b e :=
  ⟨⟨h.1, by rw [show val (TonalPalette.of x c).chroma = a from h.2]; exact hb⟩, fun ops t => c32_history_independent x c ops t⟩

theorem documentedContent64 (hS : L.Sound) (argb : Int) (v : Variant) (dark : Bool) (c : 𝔻) (t : TonalPalette 𝔻) :
    DocumentedContent64 (DynamicScheme.new argb v (some c) dark
      (TonalPalette.of (Hct.fromInt argb).getHue (Hct.fromInt argb).getChroma)
      (TonalPalette.of (Hct.fromInt argb).getHue
        (Fl.fmax ((Hct.fromInt argb).getChroma - 32.0) ((Hct.fromInt argb).getChroma * 0.5))) t
      (TonalPalette.of (Hct.fromInt argb).getHue ((Hct.fromInt argb).getChroma / 8.0))
      (TonalPalette.of (Hct.fromInt argb).getHue ((Hct.fromInt argb).getChroma / 8.0 + 4.0)))
      (val (Hct.fromInt argb : Hct 𝔻).getHue) (val (Hct.fromInt argb : Hct 𝔻).getChroma) := by
  have z := hue64 hS argb
  obtain ⟨-, k, -, -, -, ik, k0, k1⟩ := seed64 hS argb
  have ik : Is (Hct.fromInt argb : Hct 𝔻).getChroma k := ik
  have vk : val (Hct.fromInt argb : Hct 𝔻).getChroma = k := ik.2
  have huge {w : ℝ} (h : |w| ≤ 10 ^ 11) : |rnd w| < 2 ^ 1024 := rnd_huge (h.trans (by norm_num))
  have i1 := ik.sub k32 (huge (by rw [abs_le]; constructor <;> norm_num at k1 ⊢ <;> linarith))
  have i2 := ik.mul lhalf (huge (by rw [abs_le]; constructor <;> norm_num at k1 ⊢ <;> linarith))
  have i3 := ik.div l8' (by norm_num) (huge (by rw [abs_le]; constructor <;> norm_num at k1 ⊢ <;> linarith))
  have e1 := rnd_scaled (v := k - 32) (K := k + 32) (by rw [abs_le]; constructor <;> linarith) (by linarith)
  have e2 := rnd_scaled (v := k * (1 / 2)) (K := k + 32) (by rw [abs_le]; constructor <;> linarith) (by linarith)
  have e3 := rnd_scaled (v := k / 8) (K := k + 32) (by rw [abs_le]; constructor <;> linarith) (by linarith)
  have e3' := abs_le.1 e3
  have b4 : |rnd (k / 8) + 4| ≤ k + 32 := by rw [abs_le]; constructor <;> norm_num at e3' ⊢ <;> linarith
  have i4 := i3.add l4' (huge (b4.trans (by norm_num at k1 ⊢; linarith)))
  have e4 := rnd_scaled b4 (by linarith)
  have e4' := abs_le.1 e4
  have self0 (x : 𝔻) (hx : HueIn x) : Turned64 x (val x) 0 := ⟨hx, 0, by norm_num⟩
  rw [vk]
  refine ⟨⟨self0 _ z, reads_of _ _ ik⟩, ⟨self0 _ z, reads_near _ (i1.fmax i2) ?_⟩, ⟨self0 _ z, reads_near _ i3 (e3.trans ?_)⟩,
    self0 _ z, reads_near _ i4 ?_⟩
  · rw [show k / 2 = k * (1 / 2) by ring]
    refine near_max (e1.trans ?_) (e2.trans ?_) <;> · norm_num; linarith
  · norm_num; linarith
  · rw [abs_le]; constructor <;> norm_num at e3' e4' ⊢ <;> linarith

/-- C63 (binary64): content.  Whenever it is built, it has the documented palettes, and the tertiary one is that of the last of the three
analogous colours of six divisions, moved out of the disliked range. -/
theorem c63_binary64_content (hS : L.Sound) (argb : Int) (dark : Bool) (c : 𝔻) (s : DynamicScheme 𝔻)
    (hs : Schemes.content (Hct.fromInt argb) dark c = some s) :
    Records64 s argb .content dark c ∧
    DocumentedContent64 s (val (Hct.fromInt argb : Hct 𝔻).getHue) (val (Hct.fromInt argb : Hct 𝔻).getChroma) ∧
    ∃ l t, onFresh (Hct.fromInt argb : Hct 𝔻) (TemperatureCache.analogous (some 3) (some 6)) = some l ∧ l.getLast? = some t ∧
      s.tertiaryPalette = TonalPalette.fromHct (Dislike.fixIfDisliked t) := by
  simp only [Schemes.content, Option.bind_eq_bind, Option.bind_eq_some_iff, Option.some.injEq, c23_from_int] at hs
  obtain ⟨l, hl, t, ht, rfl⟩ := hs
  exact ⟨records64 .., documentedContent64 hS .., l, t, hl, ht, rfl⟩

/-- C63 (binary64): fidelity.  It can be built exactly if the complement of the source colour can be computed; it then has the documented
palettes, and the tertiary one is that of the complement, moved out of the disliked range. -/
theorem c63_binary64_fidelity (hS : L.Sound) (argb : Int) (dark : Bool) (c : 𝔻) :
    (Schemes.fidelity (Hct.fromInt argb : Hct 𝔻) dark c = none ↔
      onFresh (Hct.fromInt argb : Hct 𝔻) TemperatureCache.getComplement = none) ∧
    ∀ s, Schemes.fidelity (Hct.fromInt argb) dark c = some s →
      Records64 s argb .fidelity dark c ∧
      DocumentedContent64 s (val (Hct.fromInt argb : Hct 𝔻).getHue) (val (Hct.fromInt argb : Hct 𝔻).getChroma) ∧
      ∃ t, onFresh (Hct.fromInt argb : Hct 𝔻) TemperatureCache.getComplement = some t ∧
        s.tertiaryPalette = TonalPalette.fromHct (Dislike.fixIfDisliked t) := by
  have hrun : TemperatureCache.getComplement.run' (TemperatureCache.new (Hct.fromInt argb)) =
    onFresh (Hct.fromInt argb : Hct 𝔻) TemperatureCache.getComplement := rfl
  simp only [Schemes.fidelity, hrun, Option.bind_eq_bind, Option.bind_eq_some_iff, Option.some.injEq, c23_from_int]
  constructor
  · cases onFresh (Hct.fromInt argb : Hct 𝔻) TemperatureCache.getComplement <;> simp
  · rintro s ⟨t, ht, rfl⟩
    exact ⟨records64 .., documentedContent64 hS .., t, ht, rfl⟩

/-! ## C42 -/

/-- The computed hue of the purplish red (255, 0, 139) rounds to 360. -/
theorem witness64 (hS : L.Sound) (hT : L.TempOk) : 359.5 ≤ val (Hct.fromInt 0xFFFF008B : Hct 𝔻).getHue := by
  have near := abs_le.1 (c83_hue_no_wrap hS hT 0xFFFF008B (by norm_num)).2
  have w : 359.6 < (Hct.fromInt 0xFFFF008B : Hct ℝ).getHue := witness_hue_sharp
  norm_num at near w ⊢
  linarith

/-- C42 is false in binary64 too: asking for analogous colours or the complement of #FF008B panics. -/
theorem c42_binary64_violated (hS : L.Sound) (hT : L.TempOk) :
    onFresh (Hct.fromInt 0xFFFF008B : Hct 𝔻) (TemperatureCache.analogous none none) = none ∧
    onFresh (Hct.fromInt 0xFFFF008B : Hct 𝔻) TemperatureCache.getComplement = none := by
  have w := witness64 hS hT
  obtain ⟨c, w', hc, hw', -⟩ := c40_binary64_extremes hS (Hct.fromInt 0xFFFF008B)
  exact ⟨(c42_binary64_analogous_iff hS _ _ _ (by norm_num)).2 w, (c42_binary64_complement_iff hS _ c w' hc hw').2 (Or.inl w)⟩

/-- C42 (binary64): so neither a content nor a fidelity scheme can be made for that colour; for colours of hue below 359.5 a content
scheme always can. -/
theorem c42_binary64_schemes (hS : L.Sound) (hT : L.TempOk) (dark : Bool) (c : 𝔻) :
    Schemes.content (Hct.fromInt 0xFFFF008B : Hct 𝔻) dark c = none ∧ Schemes.fidelity (Hct.fromInt 0xFFFF008B : Hct 𝔻) dark c = none ∧
    ∀ argb : Int, Schemes.content (Hct.fromInt argb : Hct 𝔻) dark c = none ↔ 359.5 ≤ val (Hct.fromInt argb : Hct 𝔻).getHue := by
  have key (argb : Int) : Schemes.content (Hct.fromInt argb : Hct 𝔻) dark c = none ↔ 359.5 ≤ val (Hct.fromInt argb : Hct 𝔻).getHue := by
    have hrun : (TemperatureCache.analogous (some 3) (some 6)).run' (TemperatureCache.new (Hct.fromInt argb)) =
      onFresh (Hct.fromInt argb : Hct 𝔻) (TemperatureCache.analogous (some 3) (some 6)) := rfl
    have iff := c42_binary64_analogous_iff hS argb (some 3) (some 6) (by norm_num)
    rw [← iff]
    simp only [Schemes.content, hrun, Option.bind_eq_bind]
    rcases h : onFresh (Hct.fromInt argb : Hct 𝔻) (TemperatureCache.analogous (some 3) (some 6)) with _ | l
    · simp
    · obtain ⟨hl, -⟩ := c41_binary64_members hS argb (some 3) (some 6) (by norm_num) l h
      have : l ≠ [] := by rintro rfl; simp at hl
      obtain ⟨t, ht⟩ : ∃ t, l.getLast? = some t := ⟨_, List.getLast?_eq_some_getLast this⟩
      simp [ht]
  refine ⟨(key _).2 (witness64 hS hT), (c63_binary64_fidelity hS _ _ _).1.2 (c42_binary64_violated hS hT).2, key⟩

/-- The hypotheses can be met: with a correctly rounding library the purplish red lies in the last interval of both tables. -/
example : ∃ L : Libm, L.Sound ∧ L.TempOk ∧ 321 < val (Hct.fromInt 0xFFFF008B : Hct (F64 L)).getHue ∧
    val (Hct.fromInt 0xFFFF008B : Hct (F64 L)).getHue < 360 := by
  obtain ⟨L, hS, hT, -⟩ := hue_sound_exists
  have near := abs_le.1 (c83_hue_no_wrap hS hT 0xFFFF008B (by norm_num)).2
  have w1 : 359.5 < (Hct.fromInt 0xFFFF008B : Hct ℝ).getHue := witness_hue.1
  refine ⟨L, hS, hT, ?_, (c27_binary64_not_black hS hT 0xFFFF008B (by norm_num)).2.2⟩
  norm_num at w1 near ⊢; linarith

end Mcu.Props.Binary64
