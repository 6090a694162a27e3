import Verif.Model.QuantizerMap

/-! Model of /repo/src/quantize/quantizer_wu.rs. -/

namespace Mcu.QuantizerWu

open ColorUtils

variable {F : Type} [Fl F]

/-- quantizer_wu.rs 43-46 -/
def maxIndex : Int := 32
/-- quantizer_wu.rs 45 -/
def sideLength : Nat := 33
/-- quantizer_wu.rs 46 -/
def totalSize : Nat := 35937

/-- quantizer_wu.rs 59-66: `(r << 10) + (r << 6) + (g << 5) + r + g + b` -/
def getIndex (r g b : Int) : Int := r * 1024 + r * 64 + g * 32 + r + g + b

/-- `t[i as usize]`.  Out of range Rust panics; the model returns `z`.  `Props/Wu.lean` proves that
every index used is in range. -/
def tget {α : Type} (z : α) (t : Array α) (i : Int) : α := if 0 ≤ i then t.getD i.toNat z else z

/-- `t[i as usize] = v` -/
def tset {α : Type} (t : Array α) (i : Int) (v : α) : Array α :=
  if 0 ≤ i then t.setIfInBounds i.toNat v else t

/-- quantizer_wu.rs 461-469 -/
structure Box where
  r0 : Int := 0
  r1 : Int := 0
  g0 : Int := 0
  g1 : Int := 0
  b0 : Int := 0
  b1 : Int := 0
  vol : Int := 0
deriving DecidableEq, Repr, Inhabited

/-- quantizer_wu.rs 10-17 without `cubes` (which `create_boxes` overwrites, line 136). -/
structure Tables (F : Type) where
  weights : Array Int
  momentsR : Array Int
  momentsG : Array Int
  momentsB : Array Int
  moments : Array F

/-- quantizer_wu.rs 79-81: histogram coordinate of a channel, `(c >> 3) + 1` -/
def bucket (c : Int) : Int := c / 8 + 1

/-- quantizer_wu.rs 74-89: one histogram entry. -/
def addEntry (t : Tables F) (entry : Int × Int) : Tables F :=
  let pixel := entry.1
  let count := entry.2
  let red := redFromArgb pixel
  let green := greenFromArgb pixel
  let blue := blueFromArgb pixel
  let index := getIndex (bucket red) (bucket green) (bucket blue)
  { weights := tset t.weights index (tget 0 t.weights index + count)
    momentsR := tset t.momentsR index (tget 0 t.momentsR index + red * count)
    momentsG := tset t.momentsG index (tget 0 t.momentsG index + green * count)
    momentsB := tset t.momentsB index (tget 0 t.momentsB index + blue * count)
    moments := tset t.moments index (tget 0.0 t.moments index +
      Fl.ofInt (count * (red * red + green * green + blue * blue))) }

/-- quantizer_wu.rs 69-73 -/
def emptyTables : Tables F :=
  { weights := Array.replicate totalSize 0
    momentsR := Array.replicate totalSize 0
    momentsG := Array.replicate totalSize 0
    momentsB := Array.replicate totalSize 0
    moments := Array.replicate totalSize 0.0 }

/-- quantizer_wu.rs 68-90.  `entries`: the hash map in iteration order. -/
def constructHistogram (entries : List (Int × Int)) : Tables F := entries.foldl addEntry emptyTables

/-- The loop variables of `compute_moments` for one table: table, `area`, `line`. -/
structure MomentState (α : Type) where
  tab : Array α
  area : Array α
  line : α

/-- 1, 2, ..., 32 (`1..Self::SIDE_LENGTH`) -/
def side : List Int := (List.range 32).map fun (n : Nat) => (n : Int) + 1

/-- quantizer_wu.rs 105-130: body of the innermost loop for one table. -/
def momentB {α : Type} [Add α] (z : α) (r g : Int) (s : MomentState α) (b : Int) : MomentState α :=
  let index := getIndex r g b
  let line := s.line + tget z s.tab index
  let area := tset s.area b (tget z s.area b + line)
  let previousIndex := getIndex (r - 1) g b
  let tab := tset s.tab index (tget z s.tab previousIndex + tget z area b)
  { tab, area, line }

/-- quantizer_wu.rs 99-131 -/
def momentG {α : Type} [Add α] (z : α) (r : Int) (s : MomentState α) (g : Int) : MomentState α :=
  side.foldl (momentB z r g) { s with line := z }

/-- quantizer_wu.rs 93-132 -/
def momentR {α : Type} [Add α] (z : α) (tab : Array α) (r : Int) : Array α :=
  (side.foldl (momentG z r) { tab, area := Array.replicate sideLength z, line := z }).tab

/-- quantizer_wu.rs 92-133 for one table.  In Rust the five tables are updated side by side by the same
statements, each reading only its own table, area and line; the model runs the loop once per table. -/
def cumulate {α : Type} [Add α] (z : α) (tab : Array α) : Array α := side.foldl (momentR z) tab

/-- quantizer_wu.rs 92-133 -/
def computeMoments (t : Tables F) : Tables F :=
  { weights := cumulate 0 t.weights
    momentsR := cumulate 0 t.momentsR
    momentsG := cumulate 0 t.momentsG
    momentsB := cumulate 0 t.momentsB
    moments := cumulate 0.0 t.moments }

/-- quantizer_wu.rs 368-377 -/
def volume (c : Box) (m : Array Int) : Int :=
  tget 0 m (getIndex c.r1 c.g1 c.b1) - tget 0 m (getIndex c.r1 c.g1 c.b0)
  - tget 0 m (getIndex c.r1 c.g0 c.b1) + tget 0 m (getIndex c.r1 c.g0 c.b0)
  - tget 0 m (getIndex c.r0 c.g1 c.b1) + tget 0 m (getIndex c.r0 c.g1 c.b0)
  + tget 0 m (getIndex c.r0 c.g0 c.b1) - tget 0 m (getIndex c.r0 c.g0 c.b0)

/-- quantizer_wu.rs 427-431 -/
inductive Direction | red | green | blue
deriving DecidableEq, Repr

/-- quantizer_wu.rs 379-400 -/
def bottom (c : Box) (d : Direction) (m : Array Int) : Int :=
  match d with
  | .red => -tget 0 m (getIndex c.r0 c.g1 c.b1) + tget 0 m (getIndex c.r0 c.g1 c.b0)
      + tget 0 m (getIndex c.r0 c.g0 c.b1) - tget 0 m (getIndex c.r0 c.g0 c.b0)
  | .green => -tget 0 m (getIndex c.r1 c.g0 c.b1) + tget 0 m (getIndex c.r1 c.g0 c.b0)
      + tget 0 m (getIndex c.r0 c.g0 c.b1) - tget 0 m (getIndex c.r0 c.g0 c.b0)
  | .blue => -tget 0 m (getIndex c.r1 c.g1 c.b0) + tget 0 m (getIndex c.r1 c.g0 c.b0)
      + tget 0 m (getIndex c.r0 c.g1 c.b0) - tget 0 m (getIndex c.r0 c.g0 c.b0)

/-- quantizer_wu.rs 402-423 -/
def top (c : Box) (d : Direction) (p : Int) (m : Array Int) : Int :=
  match d with
  | .red => tget 0 m (getIndex p c.g1 c.b1) - tget 0 m (getIndex p c.g1 c.b0)
      - tget 0 m (getIndex p c.g0 c.b1) + tget 0 m (getIndex p c.g0 c.b0)
  | .green => tget 0 m (getIndex c.r1 p c.b1) - tget 0 m (getIndex c.r1 p c.b0)
      - tget 0 m (getIndex c.r0 p c.b1) + tget 0 m (getIndex c.r0 p c.b0)
  | .blue => tget 0 m (getIndex c.r1 c.g1 p) - tget 0 m (getIndex c.r1 c.g0 p)
      - tget 0 m (getIndex c.r0 c.g1 p) + tget 0 m (getIndex c.r0 c.g0 p)

/-- quantizer_wu.rs 433-437 -/
structure MaximizeResult (F : Type) where
  cutLocation : Int
  maximum : F

/-- The integers `first, first+1, ..., last-1` (`first..last`). -/
def rangeI (first last : Int) : List Int :=
  (List.range (last - first).toNat).map fun (n : Nat) => first + n

/-- quantizer_wu.rs 330-364: body of the loop. -/
def maximizeStep (t : Tables F) (c : Box) (d : Direction) (wholeR wholeG wholeB wholeW : Int)
    (s : MaximizeResult F) (i : Int) : MaximizeResult F :=
  let halfR := bottom c d t.momentsR + top c d i t.momentsR
  let halfG := bottom c d t.momentsG + top c d i t.momentsG
  let halfB := bottom c d t.momentsB + top c d i t.momentsB
  let halfW := bottom c d t.weights + top c d i t.weights
  if halfW = 0 then s
  else
    let temp : F := Fl.ofInt (halfR * halfR + halfG * halfG + halfB * halfB) / Fl.ofInt halfW
    let halfR := wholeR - halfR
    let halfG := wholeG - halfG
    let halfB := wholeB - halfB
    let halfW := wholeW - halfW
    if halfW = 0 then s
    else
      let temp : F :=
        temp + Fl.ofInt (halfR * halfR + halfG * halfG + halfB * halfB) / Fl.ofInt halfW
      if temp > s.maximum then { cutLocation := i, maximum := temp } else s

/-- quantizer_wu.rs 312-366 -/
def maximize (t : Tables F) (c : Box) (d : Direction) (first last : Int)
    (wholeR wholeG wholeB wholeW : Int) : MaximizeResult F :=
  (rangeI first last).foldl (maximizeStep t c d wholeR wholeG wholeB wholeW)
    { cutLocation := -1, maximum := 0.0 }

/-- quantizer_wu.rs 302-307 -/
def withVol (c : Box) : Box := { c with vol := (c.r1 - c.r0) * (c.g1 - c.g0) * (c.b1 - c.b0) }

/-- quantizer_wu.rs 225-310.  `none` is `return false` (no cut possible); otherwise the two boxes
replacing `cubes[one_index]` and `cubes[two_index]`. -/
def cut (t : Tables F) (one : Box) : Option (Box × Box) :=
  let wholeR := volume one t.momentsR
  let wholeG := volume one t.momentsG
  let wholeB := volume one t.momentsB
  let wholeW := volume one t.weights
  let rr := maximize t one .red (one.r0 + 1) one.r1 wholeR wholeG wholeB wholeW
  let gr := maximize t one .green (one.g0 + 1) one.g1 wholeR wholeG wholeB wholeW
  let br := maximize t one .blue (one.b0 + 1) one.b1 wholeR wholeG wholeB wholeW
  if rr.maximum ≥ gr.maximum ∧ rr.maximum ≥ br.maximum then
    if rr.cutLocation < 0 then none
    else some (withVol { one with r1 := rr.cutLocation }, withVol { one with r0 := rr.cutLocation })
  else if gr.maximum ≥ rr.maximum ∧ gr.maximum ≥ br.maximum then
    some (withVol { one with g1 := gr.cutLocation }, withVol { one with g0 := gr.cutLocation })
  else
    some (withVol { one with b1 := br.cutLocation }, withVol { one with b0 := br.cutLocation })

/-- quantizer_wu.rs 211-218 (`volume` of the `f64` table) -/
def volumeF (c : Box) (m : Array F) : F :=
  tget 0.0 m (getIndex c.r1 c.g1 c.b1) - tget 0.0 m (getIndex c.r1 c.g1 c.b0)
  - tget 0.0 m (getIndex c.r1 c.g0 c.b1) + tget 0.0 m (getIndex c.r1 c.g0 c.b0)
  - tget 0.0 m (getIndex c.r0 c.g1 c.b1) + tget 0.0 m (getIndex c.r0 c.g1 c.b0)
  + tget 0.0 m (getIndex c.r0 c.g0 c.b1) - tget 0.0 m (getIndex c.r0 c.g0 c.b0)

/-- quantizer_wu.rs 207-223; `none` is the panic of the integer division by zero on line 222. -/
def variance (t : Tables F) (c : Box) : Option F :=
  let dr := volume c t.momentsR
  let dg := volume c t.momentsG
  let db := volume c t.momentsB
  let xx := volumeF c t.moments
  let hypotenuse := dr * dr + dg * dg + db * db
  let vol := volume c t.weights
  if vol = 0 then none else some (xx - Fl.ofInt (hypotenuse.tdiv vol))

/-- quantizer_wu.rs 171-178: index and value of the largest variance among `0..=i` (first one on
ties). -/
def argmax (vv : List F) (i : Nat) : Nat × F :=
  ((List.range i).map (· + 1)).foldl (fun (best : Nat × F) j =>
    let v := vv.getD j 0.0
    if v > best.2 then (j, v) else best) (0, vv.getD 0 0.0)

/-- quantizer_wu.rs 156-165: the variance recorded for a box. -/
def recorded (t : Tables F) (c : Box) : Option F :=
  if c.vol > 1 then variance t c else some 0.0

/-- quantizer_wu.rs 152-183, with the values of `i` still to come; result: boxes and generated colour
count.  `none` is a panic in `variance`. -/
def boxLoop (t : Tables F) (maxColorCount : Nat) :
    List Nat → Nat → List F → List Box → Option (List Box × Nat)
  | [], _, _, cubes => some (cubes, maxColorCount)
  | i :: rest, next, vv, cubes =>
    match cut t (cubes.getD next {}) with
    | some (c1, c2) => do
      let cubes := (cubes.set next c1).set i c2
      let v1 ← recorded t c1
      let v2 ← recorded t c2
      let vv := (vv.set next v1).set i v2
      let best := argmax vv i
      if best.2 ≤ 0.0 then some (cubes, i + 1)
      else boxLoop t maxColorCount rest best.1 vv cubes
    | none =>
      let vv := vv.set next 0.0
      let best := argmax vv (i - 1)
      if best.2 ≤ 0.0 then some (cubes, i - 1 + 1)
      else boxLoop t maxColorCount rest best.1 vv cubes

/-- quantizer_wu.rs 139-147 -/
def firstBox : Box := { r1 := maxIndex, g1 := maxIndex, b1 := maxIndex }

/-- quantizer_wu.rs 135-186; `none` is a panic (`self.cubes[0]` on an empty list when
`max_color_count ≤ 0`, line 139; or division by zero). -/
def createBoxes (t : Tables F) (maxColorCount : Int) : Option (List Box × Nat) :=
  if maxColorCount ≤ 0 then none
  else
    let n := maxColorCount.toNat
    boxLoop t n ((List.range (n - 1)).map (· + 1)) 0 (List.replicate n 0.0)
      (firstBox :: List.replicate (n - 1) {})

/-- quantizer_wu.rs 194-195: `((sum / weight) as f64).round() as i64` (the division is already an
integer division). -/
def meanChannel (F : Type) [Fl F] (sum weight : Int) : Int :=
  Fl.toI64 (Fl.round (Fl.ofInt (sum.tdiv weight) : F))

/-- quantizer_wu.rs 191-202: colour of one box, if it has pixels. -/
def boxColor (t : Tables F) (c : Box) : Option Int :=
  let weight := volume c t.weights
  if weight > 0 then
    let r := meanChannel F (volume c t.momentsR) weight
    let g := meanChannel F (volume c t.momentsG) weight
    let b := meanChannel F (volume c t.momentsB) weight
    some (argbFromRgb r g b)
  else none

/-- quantizer_wu.rs 188-205 -/
def createResult (t : Tables F) (cubes : List Box) (colorCount : Nat) : List Int :=
  (cubes.take colorCount).filterMap (boxColor t)

/-- quantizer_wu.rs 19-33.  `entries` is `QuantizerMap.quantize pixels` in the (unspecified) iteration
order of the hash map.  Result: the colours in creation order, before they become the keys of a map
with value 0 (lines 30-31), which removes duplicates. -/
def quantizeEntries (F : Type) [Fl F] (entries : List (Int × Int)) (colorCount : Int) :
    Option (List Int) := do
  let t : Tables F := computeMoments (constructHistogram entries)
  let boxes ← createBoxes t colorCount
  return createResult t boxes.1 boxes.2

end Mcu.QuantizerWu
