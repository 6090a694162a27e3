import Verif.Model.QuantizerWu

/-! Specification vocabulary for the Wu quantizer: pixels in a box of colour space, their number and
the sums of their channels. -/

namespace Mcu.Spec

open Mcu.ColorUtils Mcu.QuantizerWu

/-- The histogram cell `(r, g, b)` (coordinates 1 to 32) belongs to the box. -/
def HasCell (c : Box) (r g b : Int) : Prop :=
  (c.r0 < r ∧ r ≤ c.r1) ∧ (c.g0 < g ∧ g ≤ c.g1) ∧ (c.b0 < b ∧ b ≤ c.b1)

instance (c : Box) (r g b : Int) : Decidable (HasCell c r g b) := by unfold HasCell; infer_instance

/-- The colour lies in the box: each channel, in steps of 8 and counted from 1, is above the lower and
at most the upper bound of the box. -/
def InBox (c : Box) (p : Int) : Prop :=
  (c.r0 < redFromArgb p / 8 + 1 ∧ redFromArgb p / 8 + 1 ≤ c.r1) ∧
  (c.g0 < greenFromArgb p / 8 + 1 ∧ greenFromArgb p / 8 + 1 ≤ c.g1) ∧
  (c.b0 < blueFromArgb p / 8 + 1 ∧ blueFromArgb p / 8 + 1 ≤ c.b1)

instance (c : Box) (p : Int) : Decidable (InBox c p) := by unfold InBox; infer_instance

/-- Sum of `w` over the pixels in the box; the pixels are given as (colour, number of pixels). -/
def boxTotal (w : Int → Int) (entries : List (Int × Int)) (c : Box) : Int :=
  ((entries.filter fun e => decide (InBox c e.1)).map fun e => e.2 * w e.1).sum

/-- Number of pixels in the box. -/
def boxPixels (entries : List (Int × Int)) (c : Box) : Int := boxTotal (fun _ => 1) entries c

/-- Sum of `w` over the opaque pixels in the box, pixel by pixel. -/
def pixelTotal (w : Int → Int) (pixels : List Int) (c : Box) : Int :=
  ((pixels.filter fun p => decide (alphaFromArgb p = 255 ∧ InBox c p)).map w).sum

/-- Number of opaque pixels in the box. -/
def pixelCount (pixels : List Int) (c : Box) : Int :=
  (pixels.countP fun p => decide (alphaFromArgb p = 255 ∧ InBox c p) : Nat)

/-- `entries` lists the opaque colours of the image with their multiplicities, in some order: what the
iteration over the hash map of `QuantizerMap` may deliver. -/
def CountsOf (pixels : List Int) (entries : List (Int × Int)) : Prop :=
  entries.Perm (QuantizerMap.quantize pixels)

/-- Squared length of the colour as a vector. -/
def squared (p : Int) : Int :=
  redFromArgb p * redFromArgb p + greenFromArgb p * greenFromArgb p + blueFromArgb p * blueFromArgb p

/-- A box inside the table, with ordered bounds. -/
def Proper (c : Box) : Prop :=
  (0 ≤ c.r0 ∧ c.r0 ≤ c.r1 ∧ c.r1 ≤ 32) ∧ (0 ≤ c.g0 ∧ c.g0 ≤ c.g1 ∧ c.g1 ≤ 32) ∧
  (0 ≤ c.b0 ∧ c.b0 ≤ c.b1 ∧ c.b1 ≤ 32)

/-- The boxes are proper and every cell of the histogram lies in exactly one of them. -/
def Partition (cubes : List Box) : Prop :=
  (∀ c ∈ cubes, Proper c) ∧ ∀ r g b : Int, 1 ≤ r → r ≤ 32 → 1 ≤ g → g ≤ 32 → 1 ≤ b → b ≤ 32 →
    cubes.countP (fun c => decide (HasCell c r g b)) = 1

end Mcu.Spec
