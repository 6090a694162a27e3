import Verif.Model.Hct

/-! Model of /repo/src/score/score.rs. -/

namespace Mcu.Score

open MathUtils

variable {F : Type} [Fl F]

/-- score.rs 5-8 -/
structure ScoredHct (F : Type) where
  hct : Hct F
  score : F

/-- score.rs 9-37: `a < b` in the sense of `PartialOrd::lt`, i.e. `_compare_to` is -1.
`slice::sort` (line 143) orders by `T::lt`, which is the `PartialOrd` order, not the `Ord::cmp` of
lines 39-45. -/
def ltScored (a b : ScoredHct F) : Bool := decide (a.score > b.score)

/-- score.rs 89-91, 92-100: colours in iteration order, population per integer hue (360 entries), total
population. -/
structure Histogram (F : Type) where
  colorsHct : List (Hct F)
  huePopulation : List Int
  populationSum : Int

/-- One iteration of score.rs 92-100; `none` is an index out of range on line 98.  (`hue as usize`
saturates at 0 below, like `Int.toNat`.) -/
def addColor (h : Histogram F) (entry : Int × Int) : Option (Histogram F) :=
  let hct : Hct F := Hct.fromInt entry.1
  let hue := (Fl.toI64 (Fl.floor hct.getHue)).toNat
  if hue < 360 then
    some { colorsHct := h.colorsHct ++ [hct]
           huePopulation := h.huePopulation.modify hue (· + entry.2)
           populationSum := h.populationSum + entry.2 }
  else none

/-- score.rs 89-100 -/
def histogram (entries : List (Int × Int)) : Option (Histogram F) :=
  entries.foldlM addColor { colorsHct := [], huePopulation := List.replicate 360 0, populationSum := 0 }

/-- score.rs 107-112: one hue adds its proportion to 30 neighbouring hues. -/
def spread (acc : List F) (hue : Nat) (proportion : F) : List F :=
  (List.range 30).foldl (fun acc (k : Nat) =>
    acc.modify (sanitizeDegreesInt ((hue : Int) - 14 + k)).toNat (· + proportion)) acc

/-- score.rs 103-114 -/
def excitedProportions (h : Histogram F) : List F :=
  (List.range 360).foldl (fun acc hue =>
    spread acc hue (Fl.ofInt (h.huePopulation.getD hue 0) / Fl.ofInt h.populationSum))
    (List.replicate 360 0.0)

/-- score.rs 120-121: the excited proportion of a colour's hue. -/
def proportionOf (excited : List F) (hct : Hct F) : F :=
  excited.getD (sanitizeDegreesInt (Fl.toI64 (Fl.round hct.getHue))).toNat 0.0

/-- score.rs 122-127: the colour is kept. -/
def keeps (filter : Bool) (excited : List F) (hct : Hct F) : Bool :=
  !(filter && (decide (hct.getChroma < (5.0 : F)) || decide (proportionOf excited hct ≤ (0.01 : F))))

/-- score.rs 129-139 -/
def scoreOf (excited : List F) (hct : Hct F) : F :=
  let proportionScore := proportionOf excited hct * 100.0 * 0.7
  let chromaWeight : F := if hct.getChroma < 48.0 then 0.1 else 0.3
  let chromaScore := (hct.getChroma - 48.0) * chromaWeight
  proportionScore + chromaScore

/-- score.rs 118-143.  `sort` is stable; the model uses `List.mergeSort` with `a ≤ b` read as
`!(b < a)`. -/
def scored (filter : Bool) (h : Histogram F) : List (ScoredHct F) :=
  let excited := excitedProportions h
  ((h.colorsHct.filter (keeps filter excited)).map
    (fun hct => { hct, score := scoreOf excited hct })).mergeSort (fun a b => !ltScored b a)

/-- score.rs 155-158: a chosen colour is too close in hue. -/
def duplicateHue (chosen : List (Hct F)) (hct : Hct F) (differenceDeg : Int) : Bool :=
  chosen.any fun c => decide (differenceDegrees hct.getHue c.getHue < (Fl.ofInt differenceDeg : F))

/-- score.rs 153-166 -/
def chooseLoop (desired : Int) (differenceDeg : Int) : List (ScoredHct F) → List (Hct F) → List (Hct F)
  | [], chosen => chosen
  | e :: rest, chosen =>
    let chosen := if duplicateHue chosen e.hct differenceDeg then chosen else chosen ++ [e.hct]
    if (chosen.length : Int) ≥ desired then chosen
    else chooseLoop desired differenceDeg rest chosen

/-- score.rs 149-171; `n + 15` is `difference_degrees + 1`, i.e. `n` rounds are left. -/
def chooseRounds (desired : Int) (sorted : List (ScoredHct F)) : Nat → List (Hct F) → List (Hct F)
  | 0, chosen => chosen
  | n + 1, _ =>
    let chosen := chooseLoop desired (n + 15) sorted []
    if (chosen.length : Int) ≥ desired then chosen
    else chooseRounds desired sorted n chosen

/-- score.rs 149-171: `difference_degrees` from 90 down to 15. -/
def choose (desired : Int) (sorted : List (ScoredHct F)) : List (Hct F) :=
  chooseRounds desired sorted 76 []

/-- score.rs 77-180.  `entries` are the entries of the hash map in the (unspecified) order in which it
is iterated.  `none` is a panic (index out of range, line 98). -/
def score (F : Type) [Fl F] (entries : List (Int × Int)) (desired fallbackColorArgb : Option Int)
    (filter : Option Bool) : Option (List Int) := do
  let desired := desired.getD 4
  let fallbackColorArgb := fallbackColorArgb.getD 0xff4285f4
  let filter := filter.getD true
  let h ← (histogram entries : Option (Histogram F))
  let chosen := choose desired (scored filter h)
  return (if chosen.isEmpty then [fallbackColorArgb] else []) ++ chosen.map Hct.toInt

end Mcu.Score
