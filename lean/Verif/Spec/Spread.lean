import Verif.Spec.Pixels
import Verif.FlReal

/-! Specification: the spread of a set of colours, cutting a box in two, and splitting greedily. -/

namespace Mcu.Spec

open Mcu.ColorUtils Mcu.QuantizerWu

/-- The opaque pixels of the image that lie in the box. -/
def pixelsIn (pixels : List Int) (c : Box) : List Int :=
  pixels.filter fun p => decide (alphaFromArgb p = 255 ∧ InBox c p)

/-- The mean of a channel over a list of colours. -/
noncomputable def meanChan (w : Int → Int) (l : List Int) : ℝ := ((l.map w).sum : Int) / (l.length : ℝ)

/-- The sum of the squared distances of the colours from their mean. -/
noncomputable def spread (l : List Int) : ℝ :=
  (l.map fun p => ((redFromArgb p : ℝ) - meanChan redFromArgb l) ^ 2 +
    ((greenFromArgb p : ℝ) - meanChan greenFromArgb l) ^ 2 + ((blueFromArgb p : ℝ) - meanChan blueFromArgb l) ^ 2).sum

/-- Cutting a box across one of its axes, strictly inside, gives these two boxes (`withVol` only keeps the
recorded volume right). -/
inductive CutOf (c : Box) : Box → Box → Prop
  | red (p : Int) (h : c.r0 < p ∧ p < c.r1) : CutOf c (withVol { c with r1 := p }) (withVol { c with r0 := p })
  | green (p : Int) (h : c.g0 < p ∧ p < c.g1) : CutOf c (withVol { c with g1 := p }) (withVol { c with g0 := p })
  | blue (p : Int) (h : c.b0 < p ∧ p < c.b1) : CutOf c (withVol { c with b1 := p }) (withVol { c with b0 := p })

/-- A cut that leaves opaque pixels on both sides. -/
def Split (pixels : List Int) (c c1 c2 : Box) : Prop :=
  CutOf c c1 c2 ∧ pixelsIn pixels c1 ≠ [] ∧ pixelsIn pixels c2 ≠ []

/-- The box can be split. -/
def Splittable (pixels : List Int) (c : Box) : Prop := ∃ c1 c2, Split pixels c c1 c2

/-- A split after which the two parts have the least total spread. -/
def BestSplit (pixels : List Int) (c c1 c2 : Box) : Prop :=
  Split pixels c c1 c2 ∧ ∀ a1 a2, Split pixels c a1 a2 →
    spread (pixelsIn pixels c1) + spread (pixelsIn pixels c2) ≤ spread (pixelsIn pixels a1) + spread (pixelsIn pixels a2)

/-- The sum of the squares of all channels of the colours. -/
noncomputable def sumSquares (l : List Int) : ℝ :=
  (l.map fun p => (redFromArgb p : ℝ) ^ 2 + (greenFromArgb p : ℝ) ^ 2 + (blueFromArgb p : ℝ) ^ 2).sum

/-- A split after which the two parts have the least total spread, up to a relative error of `2⁻⁴⁸`, measured by the
squares of the channels. -/
def NearBestSplit (pixels : List Int) (c c1 c2 : Box) : Prop :=
  Split pixels c c1 c2 ∧ ∀ a1 a2, Split pixels c a1 a2 →
    spread (pixelsIn pixels c1) + spread (pixelsIn pixels c2) ≤
      spread (pixelsIn pixels a1) + spread (pixelsIn pixels a2) + 2 ^ (-48 : ℤ) * sumSquares (pixelsIn pixels c)

/-- The spread of the pixels of a box, rounded up. -/
noncomputable def rank (pixels : List Int) (c : Box) : Int := ⌈spread (pixelsIn pixels c)⌉

/-- Start with all of colour space; again and again take a box that, among those that can be split, has the
largest spread (rounded up), and split it. -/
inductive Greedy (pixels : List Int) (split : Box → Box → Box → Prop) : List Box → Prop
  | start : Greedy pixels split [firstBox]
  | step {boxes rest : List Box} {c c1 c2 : Box} : Greedy pixels split boxes → boxes.Perm (c :: rest) → split c c1 c2 →
      (∀ o ∈ rest, Splittable pixels o → rank pixels o ≤ rank pixels c) → Greedy pixels split (c1 :: c2 :: rest)

/-- The box cannot be split although it contains different colours. -/
def Blocked (pixels : List Int) (c : Box) : Prop :=
  ¬ Splittable pixels c ∧ ∃ p ∈ pixelsIn pixels c, ∃ q ∈ pixelsIn pixels c,
    (redFromArgb p, greenFromArgb p, blueFromArgb p) ≠ (redFromArgb q, greenFromArgb q, blueFromArgb q)

end Mcu.Spec
