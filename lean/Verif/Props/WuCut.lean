import Verif.Lemmas.WuCut

/-! Property C69: the Wu quantizer cuts a box where the two parts have the least total spread. -/

namespace Mcu.Props

open Mcu.QuantizerWu Mcu.ColorUtils Mcu.Spec

/-- C69: for every image and every box inside colour space, a cut made by the quantizer goes across an axis strictly inside
the box, leaves opaque pixels on both sides, and of all such cuts, along any axis, it leaves the smallest total of squared
distances of the pixels from the mean of their part. -/
theorem c69_best_cut (pixels : List Int) (entries : List (Int × Int)) (h : CountsOf pixels entries) (c : Box)
    (hc : Proper c) (c1 c2 : Box)
    (hcut : cut (computeMoments (constructHistogram entries) : Tables ℝ) c = some (c1, c2)) :
    BestSplit pixels c c1 c2 := by
  obtain ⟨d, p, h1, h2, rfl, rfl, hs, hbest⟩ := cut_best (t := tablesOf ℝ entries) hcut
  have hsep := (separates_iff h hc h1 h2).1 hs
  refine ⟨⟨(cutOf_iff _ _ _).2 ⟨d, p, h1, h2, rfl, rfl⟩, hsep⟩, ?_⟩
  rintro a1 a2 ⟨ha, hn⟩
  obtain ⟨d', p', h1', h2', rfl, rfl⟩ := (cutOf_iff _ _ _).1 ha
  have := hbest d' p' h1' h2' ((separates_iff h hc h1' h2').2 hn)
  rw [score_spread h hc h1 h2, score_spread h hc h1' h2'] at this
  simp only [pixelsIn_withVol]
  linarith

/-- C69: the quantizer declines to cut a box exactly when no cut leaves opaque pixels on both sides. -/
theorem c69_no_cut (pixels : List Int) (entries : List (Int × Int)) (h : CountsOf pixels entries) (c : Box)
    (hc : Proper c) :
    cut (computeMoments (constructHistogram entries) : Tables ℝ) c = none ↔ ¬ Splittable pixels c := by
  constructor
  · rintro hcut ⟨c1, c2, ha, hn⟩
    obtain ⟨d, p, h1, h2, rfl, rfl⟩ := (cutOf_iff _ _ _).1 ha
    have hs := (separates_iff h hc h1 h2).2 hn
    have := cut_none (t := tablesOf ℝ entries) hc.1.1 hcut d p h1 h2 hs
    linarith [score_pos h hc h1 h2 hs]
  · intro hn
    by_contra hcut
    obtain ⟨⟨c1, c2⟩, he⟩ := Option.ne_none_iff_exists'.1 hcut
    exact hn ⟨c1, c2, (c69_best_cut pixels entries h c hc c1 c2 he).1⟩

/-- C69: no cut makes things worse: the two parts together never have more spread than the box. -/
theorem c69_not_worse (pixels : List Int) (c c1 c2 : Box) (h : Split pixels c c1 c2) :
    spread (pixelsIn pixels c1) + spread (pixelsIn pixels c2) ≤ spread (pixelsIn pixels c) := by
  obtain ⟨ha, hn1, hn2⟩ := h
  obtain ⟨d, p, h1, h2, rfl, rfl⟩ := (cutOf_iff _ _ _).1 ha
  have n1 := (pixelCount_pos _ _).2 hn1
  have n2 := (pixelCount_pos _ _).2 hn2
  have hs := fun w => pixelTotal_split w pixels c d p ⟨h1, h2⟩
  have hcnt : pixelCount pixels (lower c d p) + pixelCount pixels (upper c d p) = pixelCount pixels c := by
    rw [← pixelTotal_one, ← pixelTotal_one, ← pixelTotal_one]; exact hs _
  have key : ∀ x y n m : ℝ, 0 < n → 0 < m → (x + y) ^ 2 / (n + m) ≤ x ^ 2 / n + y ^ 2 / m := by
    intro x y n m hn hm
    rw [div_add_div _ _ hn.ne' hm.ne', div_le_div_iff₀ (by positivity) (by positivity)]
    nlinarith [mul_nonneg hn.le hm.le, sq_nonneg (x * m - y * n)]
  simp only [pixelsIn_withVol]
  change 0 < pixelCount pixels (lower c d p) at n1
  change 0 < pixelCount pixels (upper c d p) at n2
  rw [spread_box, spread_box, spread_box, ← hcnt, ← hs, ← hs, ← hs, ← hs]
  push_cast
  have m1 : (0:ℝ) < pixelCount pixels (lower c d p) := by exact_mod_cast n1
  have m2 : (0:ℝ) < pixelCount pixels (upper c d p) := by exact_mod_cast n2
  have k1 := key (pixelTotal redFromArgb pixels (lower c d p)) (pixelTotal redFromArgb pixels (upper c d p)) _ _ m1 m2
  have k2 := key (pixelTotal greenFromArgb pixels (lower c d p)) (pixelTotal greenFromArgb pixels (upper c d p)) _ _ m1 m2
  have k3 := key (pixelTotal blueFromArgb pixels (lower c d p)) (pixelTotal blueFromArgb pixels (upper c d p)) _ _ m1 m2
  rw [add_div, add_div, add_div, add_div, add_div, add_div]
  linarith

/-- An image whose box can be cut. -/
example : ∃ (pixels : List Int) (entries : List (Int × Int)) (c : Box), CountsOf pixels entries ∧ Proper c ∧
    Splittable pixels c :=
  ⟨[0xFFFF0000, 0x80FF0000, 0xFF00FF00], QuantizerMap.quantize [0xFFFF0000, 0x80FF0000, 0xFF00FF00], firstBox,
    List.Perm.refl _, by unfold Proper firstBox maxIndex; decide,
    withVol { firstBox with r1 := 16 }, withVol { firstBox with r0 := 16 }, .red 16 (by decide), by decide, by decide⟩

end Mcu.Props
