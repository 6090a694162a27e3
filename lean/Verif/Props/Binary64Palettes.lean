import Verif.Props.Binary64Drawn
import Verif.Props.Binary64Angles
import Verif.Props.LegacyScheme

/-! Properties C36, C37, C38 and C65 in IEEE-754 binary64: key colours, core palettes, disliked colours and legacy schemes. -/

namespace Mcu.Props.Binary64

open Mcu.Ieee MathUtils ColorUtils HctSolver Lemmas Spec Contrast LegacySpec

variable {L : Libm}

local notation "𝔻" => F64 L

/-! ## C36 -/

section
variable {F : Type} [Fl F]

/-- The tones examined in the first `n` rounds of the search for a key colour. -/
def Tried (n : Nat) (t : F) : Prop :=
  t = 50.0 ∨ ∃ d : Nat, 1 ≤ d ∧ d ≤ n ∧ (t = 50.0 + Fl.ofInt (d : Int) ∨ t = 50.0 - Fl.ofInt (d : Int))

/-- How far the chroma of the colour of a tone is from the chroma asked for, as computed. -/
def miss (hue chroma t : F) : F := Fl.abs ((Hct.fromHct hue chroma t).getChroma - chroma)

theorem Tried.step {n : Nat} {t : F} (h : Tried n t) : Tried (n + 1) t := by
  rcases h with h | ⟨d, h1, h2, h3⟩
  · exact Or.inl h
  · exact Or.inr ⟨d, h1, by omega, h3⟩

theorem tried_split {n : Nat} {t : F} (h : Tried (n + 1) t) :
    Tried n t ∨ t = 50.0 + Fl.ofInt ((n + 1 : Nat) : Int) ∨ t = 50.0 - Fl.ofInt ((n + 1 : Nat) : Int) := by
  rcases h with h | ⟨d, h1, h2, h3⟩
  · exact .inl (.inl h)
  · rcases Nat.lt_or_ge d (n + 1) with hd | hd
    · exact .inl (.inr ⟨d, h1, by omega, h3⟩)
    · obtain rfl : d = n + 1 := by omega
      exact .inr h3

/-- The search keeps the best colour of those tried, if the misses compare like numbers. -/
theorem key_least (hue chroma : F) (v : F → ℝ) (N : Nat)
    (H : ∀ s t : F, Tried N s → Tried N t → (miss hue chroma s < miss hue chroma t ↔ v (miss hue chroma s) < v (miss hue chroma t)))
    (k : Nat) : ∀ (n : Nat) (t : F), n + k = N → Tried n t → (∀ s, Tried n s → v (miss hue chroma t) ≤ v (miss hue chroma s)) →
    ∃ m u, n ≤ m ∧ m ≤ N ∧ Tried m u ∧ (∀ s, Tried m s → v (miss hue chroma u) ≤ v (miss hue chroma s)) ∧
      TonalPalette.keyLoop hue chroma ((List.range k).map (· + (n + 1))) (miss hue chroma t) (Hct.fromHct hue chroma t) =
        Hct.fromHct hue chroma u ∧
      (m < N → (Fl.round chroma == Fl.round (Hct.fromHct hue chroma u).getChroma) = true) := by
  induction k with
  | zero => exact fun n t hn ht hl => ⟨n, t, le_rfl, by omega, ht, hl, rfl, fun h => absurd h (by omega)⟩
  | succ k ih =>
    intro n t hn ht hl
    have er : (List.range (k + 1)).map (· + (n + 1)) = (n + 1) :: (List.range k).map (· + (n + 1 + 1)) := by
      rw [List.range_succ_eq_map, List.map_cons, List.map_map, Nat.zero_add]
      congr 1
      apply List.map_congr_left
      intro a _
      simp only [Function.comp]
      omega
    have lift {m : Nat} {t : F} (hm : m ≤ N) (h : Tried m t) : Tried N t := by
      rcases h with h | ⟨d, h1, h2, h3⟩
      · exact Or.inl h
      · exact Or.inr ⟨d, h1, h2.trans hm, h3⟩
    rw [er, TonalPalette.keyLoop]
    simp only
    split
    · next hr => exact ⟨n, t, le_rfl, by omega, ht, hl, rfl, fun _ => hr⟩
    · have tu : Tried (n + 1) (50.0 + Fl.ofInt ((n + 1 : Nat) : Int) : F) := Or.inr ⟨n + 1, by omega, le_rfl, .inl rfl⟩
      have td : Tried (n + 1) (50.0 - Fl.ofInt ((n + 1 : Nat) : Int) : F) := Or.inr ⟨n + 1, by omega, le_rfl, .inr rfl⟩
      have finish (b : F) (hb : Tried (n + 1) b) (h1 : ∀ s, Tried n s → v (miss hue chroma b) ≤ v (miss hue chroma s))
          (h2 : v (miss hue chroma b) ≤ v (miss hue chroma (50.0 + Fl.ofInt ((n + 1 : Nat) : Int))))
          (h3 : v (miss hue chroma b) ≤ v (miss hue chroma (50.0 - Fl.ofInt ((n + 1 : Nat) : Int)))) :
          ∃ m u, n ≤ m ∧ m ≤ N ∧ Tried m u ∧ (∀ s, Tried m s → v (miss hue chroma u) ≤ v (miss hue chroma s)) ∧
            TonalPalette.keyLoop hue chroma ((List.range k).map (· + (n + 1 + 1))) (miss hue chroma b) (Hct.fromHct hue chroma b) =
              Hct.fromHct hue chroma u ∧
            (m < N → (Fl.round chroma == Fl.round (Hct.fromHct hue chroma u).getChroma) = true) := by
        obtain ⟨m, u, a1, a2⟩ := ih (n + 1) b (by omega) hb (fun s hs => by
          rcases tried_split hs with h | rfl | rfl
          exacts [h1 s h, h2, h3])
        exact ⟨m, u, by omega, a2⟩
      have c1 := H _ t (lift (by omega) tu) (lift (by omega) ht)
      have c2 := H _ t (lift (by omega) td) (lift (by omega) ht)
      have c3 := H _ _ (lift (by omega) td) (lift (by omega) tu)
      change ∃ m u, n ≤ m ∧ m ≤ N ∧ Tried m u ∧ (∀ s, Tried m s → v (miss hue chroma u) ≤ v (miss hue chroma s)) ∧
        TonalPalette.keyLoop hue chroma ((List.range k).map (· + (n + 1 + 1)))
          (if miss hue chroma (50.0 - Fl.ofInt ((n + 1 : Nat) : Int)) < (if miss hue chroma (50.0 + Fl.ofInt ((n + 1 : Nat) : Int)) < miss hue chroma t
            then (miss hue chroma (50.0 + Fl.ofInt ((n + 1 : Nat) : Int)), Hct.fromHct hue chroma (50.0 + Fl.ofInt ((n + 1 : Nat) : Int)))
            else (miss hue chroma t, Hct.fromHct hue chroma t)).1
          then (miss hue chroma (50.0 - Fl.ofInt ((n + 1 : Nat) : Int)), Hct.fromHct hue chroma (50.0 - Fl.ofInt ((n + 1 : Nat) : Int)))
          else (if miss hue chroma (50.0 + Fl.ofInt ((n + 1 : Nat) : Int)) < miss hue chroma t
            then (miss hue chroma (50.0 + Fl.ofInt ((n + 1 : Nat) : Int)), Hct.fromHct hue chroma (50.0 + Fl.ofInt ((n + 1 : Nat) : Int)))
            else (miss hue chroma t, Hct.fromHct hue chroma t))).1
          (if miss hue chroma (50.0 - Fl.ofInt ((n + 1 : Nat) : Int)) < (if miss hue chroma (50.0 + Fl.ofInt ((n + 1 : Nat) : Int)) < miss hue chroma t
            then (miss hue chroma (50.0 + Fl.ofInt ((n + 1 : Nat) : Int)), Hct.fromHct hue chroma (50.0 + Fl.ofInt ((n + 1 : Nat) : Int)))
            else (miss hue chroma t, Hct.fromHct hue chroma t)).1
          then (miss hue chroma (50.0 - Fl.ofInt ((n + 1 : Nat) : Int)), Hct.fromHct hue chroma (50.0 - Fl.ofInt ((n + 1 : Nat) : Int)))
          else (if miss hue chroma (50.0 + Fl.ofInt ((n + 1 : Nat) : Int)) < miss hue chroma t
            then (miss hue chroma (50.0 + Fl.ofInt ((n + 1 : Nat) : Int)), Hct.fromHct hue chroma (50.0 + Fl.ofInt ((n + 1 : Nat) : Int)))
            else (miss hue chroma t, Hct.fromHct hue chroma t))).2 = Hct.fromHct hue chroma u ∧
        (m < N → (Fl.round chroma == Fl.round (Hct.fromHct hue chroma u).getChroma) = true)
      by_cases h1 : miss hue chroma (50.0 + Fl.ofInt ((n + 1 : Nat) : Int)) < miss hue chroma t
      · rw [if_pos h1]
        have g1 := c1.1 h1
        by_cases h3 : miss hue chroma (50.0 - Fl.ofInt ((n + 1 : Nat) : Int)) < miss hue chroma (50.0 + Fl.ofInt ((n + 1 : Nat) : Int))
        · rw [if_pos h3]
          have g3 := c3.1 h3
          exact finish _ td (fun s hs => (g3.le.trans g1.le).trans (hl s hs)) g3.le le_rfl
        · rw [if_neg h3]
          exact finish _ tu (fun s hs => g1.le.trans (hl s hs)) le_rfl (not_lt.1 fun h => h3 (c3.2 h))
      · rw [if_neg h1]
        have g1 := not_lt.1 fun h => h1 (c1.2 h)
        by_cases h2 : miss hue chroma (50.0 - Fl.ofInt ((n + 1 : Nat) : Int)) < miss hue chroma t
        · rw [if_pos h2]
          have g2 := c2.1 h2
          exact finish _ td (fun s hs => g2.le.trans (hl s hs)) (g2.le.trans g1) le_rfl
        · rw [if_neg h2]
          exact finish _ ht.step hl g1 (not_lt.1 fun h => h2 (c2.2 h))

end

theorem miss_fin (hS : L.Sound) (hue chroma t : 𝔻) (hc : Fin chroma) (c0 : |val chroma| ≤ 10 ^ 50) :
    Fin (miss hue chroma t) ∧ 0 ≤ val (miss hue chroma t) := by
  obtain ⟨w, iw, hw⟩ := bd_chroma hS (solveToInt hue chroma t)
  have iu : Is ((Hct.fromHct hue chroma t).getChroma - chroma) (rnd (w - val chroma)) := by
    refine Is.sub iw (is_of chroma hc) (rnd_huge ?_)
    have h1 := abs_le.1 hw
    have h2 := abs_le.1 c0
    rw [abs_le]
    norm_num at h1 h2 ⊢
    constructor <;> linarith
  refine ⟨iu.abs.1, ?_⟩
  rw [show val (miss hue chroma t) = |rnd (w - val chroma)| from iu.abs.2]
  exact abs_nonneg _

/-- C36 in binary64: the key colour of a palette is the colour of its hue and chroma at tone 50 or at a tone up to 49 whole steps
away from 50; of the tones examined none gives a colour whose chroma, as computed, is nearer to the chroma asked for; and the
search stops early only if the chromas round to the same number. -/
theorem c36_binary64 (hS : L.Sound) (hue chroma : 𝔻) (hc : Fin chroma) (c0 : |val chroma| ≤ 10 ^ 50) :
    ∃ n ≤ 49, ∃ t : 𝔻, Tried n t ∧ (TonalPalette.of hue chroma).keyColor = Hct.fromHct hue chroma t ∧
      (∀ s : 𝔻, Tried n s → val (miss hue chroma t) ≤ val (miss hue chroma s)) ∧
      (n < 49 → (Fl.round chroma == Fl.round (TonalPalette.of hue chroma).keyColor.getChroma) = true) := by
  obtain ⟨m, u, -, h1, h2, h3, h4, h5⟩ := key_least hue chroma val 49 (fun s t _ _ =>
    (is_of _ (miss_fin hS hue chroma s hc c0).1).lt_iff (is_of _ (miss_fin hS hue chroma t hc c0).1)) 49 0 50.0 rfl (Or.inl rfl)
    (fun s hs => by
      rcases hs with rfl | ⟨d, e1, e2, -⟩
      · exact le_rfl
      · omega)
  have e : (TonalPalette.of hue chroma).keyColor = Hct.fromHct hue chroma u := h4
  exact ⟨m, h1, u, h2, e, h3, fun h => by rw [e]; exact h5 h⟩

example : Fin (L := L) (48.0 : 𝔻) ∧ |val (48.0 : 𝔻)| ≤ 10 ^ 50 := by
  have h : Is (48.0 : 𝔻) 48 := by simpa using lit (L := L) 480 1 true 48 (by norm_num) (by norm_num)
  exact ⟨h.1, by rw [show val (48.0 : 𝔻) = 48 from h.2]; norm_num⟩

/-! ## C37 -/

/-- A palette whose colours, after any history of reads, are those of its own hue and chroma. -/
def Plain (p : TonalPalette 𝔻) : Prop :=
  FinHC p.hue p.chroma ∧ ∀ ops t, ((afterReads p ops).get t).1 = (Hct.fromHct p.hue p.chroma (Fl.ofInt t)).toInt

theorem plain_of {h c : 𝔻} (hc : FinHC h c) : Plain (TonalPalette.of h c) :=
  ⟨hc, fun ops t => c32_history_independent h c ops t⟩

theorem l16' : Is (16.0 : 𝔻) 16 := by simpa using lit (L := L) 160 1 true 16 (by norm_num) (by norm_num)
theorem l24' : Is (24.0 : 𝔻) 24 := by simpa using lit (L := L) 240 1 true 24 (by norm_num) (by norm_num)
theorem l4' : Is (4.0 : 𝔻) 4 := by simpa using lit (L := L) 40 1 true 4 (by norm_num) (by norm_num)
theorem l8' : Is (8.0 : 𝔻) 8 := by simpa using lit (L := L) 80 1 true 8 (by norm_num) (by norm_num)
theorem l25' : Is (25.0 : 𝔻) 25 := by simpa using lit (L := L) 250 1 true 25 (by norm_num) (by norm_num)
theorem l84' : Is (84.0 : 𝔻) 84 := by simpa using lit (L := L) 840 1 true 84 (by norm_num) (by norm_num)
theorem l48' : Is (48.0 : 𝔻) 48 := by simpa using lit (L := L) 480 1 true 48 (by norm_num) (by norm_num)
theorem l3' : Is (3.0 : 𝔻) 3 := by simpa using lit (L := L) 30 1 true 3 (by norm_num) (by norm_num)
theorem l2' : Is (2.0 : 𝔻) 2 := by simpa using lit (L := L) 20 1 true 2 (by norm_num) (by norm_num)
theorem l6' : Is (6.0 : 𝔻) 6 := by simpa using lit (L := L) 60 1 true 6 (by norm_num) (by norm_num)
theorem l12' : Is (12.0 : 𝔻) 12 := by simpa using lit (L := L) 120 1 true 12 (by norm_num) (by norm_num)
theorem l60' : Is (60.0 : 𝔻) 60 := by simpa using lit (L := L) 600 1 true 60 (by norm_num) (by norm_num)

theorem seed64 (hS : L.Sound) (argb : Int) : ∃ h c : ℝ, Is (Cam16.fromInt argb : Cam16 𝔻).hue h ∧ 0 ≤ h ∧ h ≤ 360 ∧
    Is (Cam16.fromInt argb : Cam16 𝔻).chroma c ∧ 0 ≤ c ∧ c ≤ 9.1 * 10 ^ 9 := by
  obtain ⟨⟨h, ih, h0, h1⟩, ⟨c, ic, c0, c1⟩, -⟩ := cam64 hS.pow hS.dark hS.exp hS.trig hS.atan argb
  exact ⟨h, c, ih, h0, h1, ic, c0, c1⟩

theorem finHC_is {h c : 𝔻} {a b : ℝ} (hh : Is h a) (hc : Is c b) (hb : b ≤ 10 ^ 10) : FinHC h c := by
  refine ⟨hh.1, hc.1, ?_⟩
  rw [hc.2]
  exact hb.trans (by norm_num)

/-- The hue of the tertiary palette. -/
theorem tertiary_hue {x : 𝔻} {h : ℝ} (ih : Is x h) (h0 : 0 ≤ h) (h1 : h ≤ 360) :
    ∃ w, Is (x + 60.0) w ∧ |w - (h + 60)| ≤ 1 / 10 ^ 12 := by
  obtain ⟨a, b⟩ := rnd_ok (v := h + 60) (by rw [abs_of_nonneg (by linarith)]; linarith)
  exact ⟨_, ih.add l60' a, b⟩

/-- C37 in binary64: the palettes of the core palette of a seed have the seed's hue, the tertiary one 60 more (to within
10⁻¹²), and the documented chromas exactly. -/
theorem c37_binary64_core (hS : L.Sound) (argb : Int) :
    let k : Cam16 𝔻 := Cam16.fromInt argb
    let p : CorePalette 𝔻 := CorePalette.of argb
    (∀ s : Source, Plain (s.of p)) ∧
    (p.primary.hue = k.hue ∧ val p.primary.chroma = max 48 (val k.chroma)) ∧
    (p.secondary.hue = k.hue ∧ val p.secondary.chroma = 16) ∧
    (|val p.tertiary.hue - (val k.hue + 60)| ≤ 1 / 10 ^ 12 ∧ val p.tertiary.chroma = 24) ∧
    (p.neutral.hue = k.hue ∧ val p.neutral.chroma = 4) ∧
    (p.neutralVariant.hue = k.hue ∧ val p.neutralVariant.chroma = 8) ∧
    (val p.error.hue = 25 ∧ val p.error.chroma = 84) := by
  intro k p
  obtain ⟨h, c, ih, h0, h1, ic, c0, c1⟩ := seed64 hS argb
  obtain ⟨w, iw, hw⟩ := tertiary_hue ih h0 h1
  have im : Is (Fl.fmax 48.0 (Cam16.fromInt argb : Cam16 𝔻).chroma) (max 48 c) := l48'.fmax ic
  have hm : max 48 c ≤ 10 ^ 10 := max_le (by norm_num) (c1.trans (by norm_num))
  refine ⟨fun s => ?_, ⟨rfl, ?_⟩, ⟨rfl, l16'.2⟩, ⟨?_, l24'.2⟩, ⟨rfl, l4'.2⟩, ⟨rfl, l8'.2⟩, l25'.2, l84'.2⟩
  · cases s
    · exact plain_of (finHC_is ih im hm)
    · exact plain_of (finHC_is ih l16' (by norm_num))
    · exact plain_of (finHC_is iw l24' (by norm_num))
    · exact plain_of (finHC_is ih l4' (by norm_num))
    · exact plain_of (finHC_is ih l8' (by norm_num))
    · exact plain_of (finHC_is l25' l84' (by norm_num))
  · rw [show val p.primary.chroma = max 48 c from im.2, show val k.chroma = c from ic.2]
  · rw [show val p.tertiary.hue = w from iw.2, show val k.hue = h from ih.2]; exact hw

/-- C37 in binary64: the same for the content palette; its chromas are the correctly rounded fractions of the seed's chroma. -/
theorem c37_binary64_content (hS : L.Sound) (argb : Int) :
    let k : Cam16 𝔻 := Cam16.fromInt argb
    let p : CorePalette 𝔻 := CorePalette.contentOf argb
    (∀ s : Source, Plain (s.of p)) ∧
    (p.primary.hue = k.hue ∧ p.primary.chroma = k.chroma) ∧
    (p.secondary.hue = k.hue ∧ val p.secondary.chroma = rnd (val k.chroma / 3)) ∧
    (|val p.tertiary.hue - (val k.hue + 60)| ≤ 1 / 10 ^ 12 ∧ val p.tertiary.chroma = rnd (val k.chroma / 2)) ∧
    (p.neutral.hue = k.hue ∧ val p.neutral.chroma = min (rnd (val k.chroma / 12)) 4) ∧
    (p.neutralVariant.hue = k.hue ∧ val p.neutralVariant.chroma = min (rnd (val k.chroma / 6)) 8) ∧
    (val p.error.hue = 25 ∧ val p.error.chroma = 84) := by
  intro k p
  obtain ⟨h, c, ih, h0, h1, ic, c0, c1⟩ := seed64 hS argb
  obtain ⟨w, iw, hw⟩ := tertiary_hue ih h0 h1
  have frac {x : 𝔻} {d : ℝ} (ix : Is x d) (hd : 1 ≤ d) : Is ((Cam16.fromInt argb : Cam16 𝔻).chroma / x) (rnd (c / d)) ∧ rnd (c / d) ≤ 10 ^ 10 := by
    have h2 : c / d ≤ 9.1 * 10 ^ 9 := (div_le_self c0 hd).trans c1
    have h3 : 0 ≤ c / d := by positivity
    have h4 : rnd (c / d) ≤ 10 ^ 10 := by
      have h5 := rep_int (n := 10 ^ 10) (by norm_num)
      have h6 := h5.rnd_le (v := c / d) (by push_cast; norm_num at h2 ⊢; linarith)
      push_cast at h6
      norm_num at h6 ⊢; exact h6
    refine ⟨ic.div ix (by linarith) (rnd_huge ?_), h4⟩
    rw [abs_of_nonneg h3]
    norm_num at h2 ⊢
    linarith
  obtain ⟨i3, b3⟩ := frac (l3' (L := L)) (by norm_num)
  obtain ⟨i2, b2⟩ := frac (l2' (L := L)) (by norm_num)
  obtain ⟨i12, b12⟩ := frac (l12' (L := L)) (by norm_num)
  obtain ⟨i6, b6⟩ := frac (l6' (L := L)) (by norm_num)
  have ev : val k.chroma = c := ic.2
  refine ⟨fun s => ?_, ⟨rfl, rfl⟩, ⟨rfl, ?_⟩, ⟨?_, ?_⟩, ⟨rfl, ?_⟩, ⟨rfl, ?_⟩, l25'.2, l84'.2⟩
  · cases s
    · exact plain_of (finHC_is ih ic (c1.trans (by norm_num)))
    · exact plain_of (finHC_is ih i3 b3)
    · exact plain_of (finHC_is iw i2 b2)
    · exact plain_of (finHC_is ih (i12.fmin l4') ((min_le_right _ _).trans (by norm_num)))
    · exact plain_of (finHC_is ih (i6.fmin l8') ((min_le_right _ _).trans (by norm_num)))
    · exact plain_of (finHC_is l25' l84' (by norm_num))
  · rw [ev]; exact i3.2
  · rw [show val p.tertiary.hue = w from iw.2, show val k.hue = h from ih.2]; exact hw
  · rw [ev]; exact i2.2
  · rw [ev]; exact (i12.fmin l4').2
  · rw [ev]; exact (i6.fmin l8').2

/-! ## C65 -/

/-- C65 in binary64: for every seed, each role of the four legacy schemes is the colour its documented palette gives for its
documented tone, and its tone is within 0.846 of the documented one. -/
theorem c65_binary64_tone (hS : L.Sound) (content dark : Bool) (argb : Int) (r : LegacySpec.Role) :
    let p : CorePalette 𝔻 := if content then CorePalette.contentOf argb else CorePalette.of argb
    r.color (legacyOf 𝔻 content dark argb) =
      (Hct.fromHct (r.source.of p).hue (r.source.of p).chroma (Fl.ofInt (r.tone dark))).toInt ∧
    |val (lstarFromArgb (r.color (legacyOf 𝔻 content dark argb)) : 𝔻) - (r.tone dark : Int)| ≤ 0.846 := by
  intro p
  have hp : Plain (r.source.of p) := by
    cases content
    · exact (c37_binary64_core hS argb).1 _
    · exact (c37_binary64_content hS argb).1 _
  have e : legacyOf 𝔻 content dark argb = legacy dark p := by cases content <;> cases dark <;> rfl
  have ec : r.color (legacyOf 𝔻 content dark argb) =
      (Hct.fromHct (r.source.of p).hue (r.source.of p).chroma (Fl.ofInt (r.tone dark))).toInt := by
    rw [e, c65_table]; exact hp.2 [] _
  refine ⟨ec, ?_⟩
  rw [ec]
  have ht : 0 ≤ r.tone dark ∧ r.tone dark ≤ 100 := by cases dark <;> cases r <;> decide
  have it : Is (Fl.ofInt (r.tone dark) : 𝔻) (r.tone dark : ℝ) := is_ofInt (by rw [abs_le]; constructor <;> omega)
  have ev : val (Fl.ofInt (r.tone dark) : 𝔻) = (r.tone dark : ℝ) := it.2
  have := c26_binary64 hS.pow hS.tail hS.trig hS.exp (r.source.of p).hue (r.source.of p).chroma (Fl.ofInt (r.tone dark))
    hp.1.1 hp.1.2.1 hp.1.2.2 it.1 (by rw [ev]; exact_mod_cast ht.1) (by rw [ev]; exact_mod_cast ht.2)
  rwa [ev] at this

/-- C65 in binary64: for every seed, the colours of a text role and of the role it is drawn on have a WCAG contrast of at
least 4.5. -/
theorem c65_binary64_contrast (hS : L.Sound) (content dark : Bool) (argb : Int) (pair : LegacySpec.Role × LegacySpec.Role) (hp : pair ∈ textOn) :
    4.5 ≤ wcagContrast (pair.1.color (legacyOf 𝔻 content dark argb)) (pair.2.color (legacyOf 𝔻 content dark argb)) := by
  have near (r : LegacySpec.Role) : |(lstarFromArgb (r.color (legacyOf 𝔻 content dark argb)) : ℝ) - (r.tone dark : Int)| ≤ 2 := by
    have h1 := abs_le.1 (c65_binary64_tone hS content dark argb r).2
    have h2 := abs_le.1 (Ap.val_near (ap_lstarFromArgb hS.pow (r.color (legacyOf 𝔻 content dark argb)))).2
    rw [abs_le]
    norm_num at h1 h2 ⊢
    constructor <;> linarith
  rw [← ratio_eq_wcag]
  exact c65_contrast dark pair hp _ _ (near _) (near _)

/-! ## C38 -/

open Dislike

/-- C38 in binary64: a disliked colour whose chroma is a number up to 10⁵⁰ is replaced by one that is not disliked, so that
fixing twice changes no more than fixing once. -/
theorem c38_binary64 (hS : L.Sound) (x : Hct 𝔻) (hh : Fin x.hue) (hc : Fin x.chroma) (c1 : val x.chroma ≤ 10 ^ 50) :
    isDisliked (fixIfDisliked x) = false ∧ fixIfDisliked (fixIfDisliked x) = fixIfDisliked x := by
  have main : isDisliked (fixIfDisliked x) = false := by
    cases h : isDisliked x with
    | false => rw [c38_liked_unchanged x h]; exact h
    | true =>
      rw [c38_fixed x h]
      have l70 : Is (70.0 : 𝔻) 70 := by simpa using lit (L := L) 700 1 true 70 (by norm_num) (by norm_num)
      have l65 : Is (65.0 : 𝔻) 65 := by simpa using lit (L := L) 650 1 true 65 (by norm_num) (by norm_num)
      have v70 : val (70.0 : 𝔻) = 70 := l70.2
      have t := c26_binary64 hS.pow hS.tail hS.trig hS.exp x.hue x.chroma 70.0 hh hc c1 l70.1 (by rw [v70]; norm_num) (by rw [v70]; norm_num)
      rw [v70] at t
      have t := abs_le.1 t
      have f := (argb_tone hS.pow (solveToInt x.hue x.chroma (70.0 : 𝔻))).1
      have r := round64 (is_of _ f) (by rw [abs_le]; norm_num at t ⊢; constructor <;> linarith)
      rw [Bool.eq_false_iff]
      intro hd
      simp only [isDisliked, Bool.and_eq_true, decide_eq_true_eq] at hd
      have hd := hd.2
      change Fl.round (lstarFromArgb (solveToInt x.hue x.chroma (70.0 : 𝔻)) : 𝔻) < 65.0 at hd
      rw [r.lt_iff l65] at hd
      have := abs_le.1 (abs_realRound_sub (val (lstarFromArgb (solveToInt x.hue x.chroma (70.0 : 𝔻)) : 𝔻)))
      norm_num at t
      linarith
  exact ⟨main, c38_liked_unchanged _ main⟩

/-- C38 in binary64: for a colour with hue and chroma up to 1000 and tone up to 100, what is disliked is decided exactly: hues
from 89.5 below 111.5, chromas from 16.5 and tones below 64.5. -/
theorem c38_binary64_characterisation (x : Hct 𝔻) (hh : Fin x.hue ∧ 0 ≤ val x.hue ∧ val x.hue ≤ 1000)
    (hc : Fin x.chroma ∧ 0 ≤ val x.chroma ∧ val x.chroma ≤ 1000) (ht : Fin x.tone ∧ 0 ≤ val x.tone ∧ val x.tone ≤ 1000) :
    isDisliked x = true ↔ (89.5 ≤ val x.hue ∧ val x.hue < 111.5) ∧ 16.5 ≤ val x.chroma ∧ val x.tone < 64.5 := by
  have l90 : Is (90.0 : 𝔻) 90 := by simpa using lit (L := L) 900 1 true 90 (by norm_num) (by norm_num)
  have l111 : Is (111.0 : 𝔻) 111 := by simpa using lit (L := L) 1110 1 true 111 (by norm_num) (by norm_num)
  have l65 : Is (65.0 : 𝔻) 65 := by simpa using lit (L := L) 650 1 true 65 (by norm_num) (by norm_num)
  have r1 := round64 (is_of _ hh.1) (by rw [abs_of_nonneg hh.2.1]; exact hh.2.2)
  have r2 := round64 (is_of _ hc.1) (by rw [abs_of_nonneg hc.2.1]; exact hc.2.2)
  have r3 := round64 (is_of _ ht.1) (by rw [abs_of_nonneg ht.2.1]; exact ht.2.2)
  have e := c38_characterisation ⟨val x.hue, val x.chroma, val x.tone, 0⟩ hh.2.1 hc.2.1 ht.2.1
  have z90 : (90.0 : ℝ) = 90 := by norm_num
  have z111 : (111.0 : ℝ) = 111 := by norm_num
  have z16 : (16.0 : ℝ) = 16 := by norm_num
  have z65 : (65.0 : ℝ) = 65 := by norm_num
  rw [← e]
  simp only [isDisliked, Hct.getHue, Hct.getChroma, Hct.getTone, fl_round, Bool.and_eq_true, decide_eq_true_eq, ge_iff_le, gt_iff_lt,
    l90.le_iff r1, r1.le_iff l111, l16'.lt_iff r2, r3.lt_iff l65, z90, z111, z16, z65]

/-- A disliked colour: a dark yellow-green. -/
example : ∃ x : Hct 𝔻, isDisliked x = true ∧ Fin x.hue ∧ Fin x.chroma ∧ val x.chroma ≤ 10 ^ 50 := by
  have i : Is (100.0 : 𝔻) 100 := by simpa using lit (L := L) 1000 1 true 100 (by norm_num) (by norm_num)
  have v : val (100.0 : 𝔻) = 100 := i.2
  have j : Is (48.0 : 𝔻) 48 := l48'
  have w : val (48.0 : 𝔻) = 48 := j.2
  refine ⟨⟨100.0, 48.0, 48.0, 0xFF606000⟩, ?_, i.1, j.1, by rw [w]; norm_num⟩
  rw [c38_binary64_characterisation _ ⟨i.1, by rw [v]; norm_num, by rw [v]; norm_num⟩ ⟨j.1, by rw [w]; norm_num, by rw [w]; norm_num⟩
    ⟨j.1, by rw [w]; norm_num, by rw [w]; norm_num⟩]
  change (_ ≤ val (100.0 : 𝔻) ∧ val (100.0 : 𝔻) < _) ∧ _ ≤ val (48.0 : 𝔻) ∧ val (48.0 : 𝔻) < _
  rw [v, w]; norm_num

end Mcu.Props.Binary64
