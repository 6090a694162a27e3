import Verif.Model.Hct

/-! Model of /repo/src/temperature/temperature_cache.rs.

`HashMap<Hct, f64>` is keyed by `Hct`, whose `Eq`/`Hash` only look at the ARGB integer
(hct.rs 18-28), so the model keys the map by that integer.  Methods take `&mut self`; in the model
they are functions from the cache to `Option (result × new cache)`, where `none` is a panic
(slice index out of range, missing map key, `expect` on an empty list). -/

namespace Mcu

/-- temperature_cache.rs 12-19 -/
structure TemperatureCache (F : Type) where
  input : Hct F
  hctsByTemp : List (Hct F)
  hctsByHue : List (Hct F)
  tempsByHct : List (Int × F)
  inputRelativeTemperature : F
  complement : Option (Hct F)

namespace TemperatureCache

open MathUtils ColorUtils

variable {F : Type} [Fl F]

/-- A method on `&mut self` that may panic. -/
abbrev M (F : Type) := StateT (TemperatureCache F) Option

/-- A panic. -/
def panic {α : Type} : M F α := fun _ => none

/-- Unwrapping: `none` panics. -/
def need {α : Type} : Option α → M F α
  | some a => pure a
  | none => panic

/-- temperature_cache.rs 21-30 -/
def new (input : Hct F) : TemperatureCache F :=
  { input, hctsByTemp := [], hctsByHue := [], tempsByHct := [],
    inputRelativeTemperature := -1.0, complement := none }

/-- temperature_cache.rs 298-303 -/
def isBetween (angle a b : F) : Bool :=
  if a < b then a ≤ angle && angle ≤ b else a ≤ angle || angle ≤ b

/-- temperature_cache.rs 322-334 (the argument is only used through its ARGB integer) -/
def rawTemperatureOfArgb (argb : Int) : F :=
  let lab : Vec3 F := labFromArgb argb
  let hue := sanitizeDegreesDouble (Fl.atan2 lab.x2 lab.x1 * 180.0 / Fl.pi)
  let chroma := Fl.sqrt (lab.x1 * lab.x1 + lab.x2 * lab.x2)
  (-0.5) + 0.02 * Fl.powf chroma 1.07 * Fl.cos (sanitizeDegreesDouble (hue - 50.0) * Fl.pi / 180.0)

/-- temperature_cache.rs 322-334 -/
def rawTemperature (color : Hct F) : F := rawTemperatureOfArgb color.toInt

/-- temperature_cache.rs 286-291: the 360 colours at integer hues. -/
def computeHctsByHue (input : Hct F) : List (Hct F) :=
  (List.range 360).map fun (hue : Nat) => Hct.fromHct (Fl.ofInt hue) input.getChroma input.getTone

/-- temperature_cache.rs 282-295 -/
def getHctsByHue : M F (List (Hct F)) := do
  let self ← get
  if !self.hctsByHue.isEmpty then return self.hctsByHue
  let hcts := computeHctsByHue self.input
  modify fun s => { s with hctsByHue := hcts }
  return hcts

/-- `HashMap::insert`: replaces the value of an existing key (standard library). -/
def mapInsert (m : List (Int × F)) (k : Int) (v : F) : List (Int × F) :=
  if m.any (fun p => p.1 == k) then m.map fun p => if p.1 == k then (k, v) else p
  else m ++ [(k, v)]

/-- temperature_cache.rs 271-274 -/
def computeTemps (hcts : List (Hct F)) : List (Int × F) :=
  hcts.foldl (fun m e => mapInsert m e.toInt (rawTemperature e)) []

/-- temperature_cache.rs 265-278 -/
def getTempsByHct : M F (List (Int × F)) := do
  let self ← get
  if !self.tempsByHct.isEmpty then return self.tempsByHct
  let byHue ← getHctsByHue
  let allHcts := byHue ++ [self.input]
  let temps := computeTemps allHcts
  modify fun s => { s with tempsByHct := temps }
  return temps

/-- `map[&hct]`: panics if the key is missing (standard library `Index` of `HashMap`). -/
def tempOf (temps : List (Int × F)) (hct : Hct F) : M F F := need (temps.lookup hct.toInt)

/-- temperature_cache.rs 253-259: the comparison `a` not greater than `b`, with missing keys not
occurring (the list consists of keys) and incomparable values treated as equal. -/
def tempLe (temps : List (Int × F)) (a b : Hct F) : Bool :=
  match temps.lookup a.toInt, temps.lookup b.toInt with
  | some ta, some tb => !decide (tb < ta)
  | _, _ => true

/-- temperature_cache.rs 241-262.  `sort_by` is a stable sort; the model uses `List.mergeSort`. -/
def getHctsByTemp : M F (List (Hct F)) := do
  let self ← get
  if !self.hctsByTemp.isEmpty then return self.hctsByTemp
  let byHue ← getHctsByHue
  let hcts := byHue ++ [self.input]
  let temps ← getTempsByHct
  let sorted := hcts.mergeSort (tempLe temps)
  modify fun s => { s with hctsByTemp := sorted }
  return sorted

/-- temperature_cache.rs 31-36 -/
def getWarmest : M F (Hct F) := do need (← getHctsByTemp).getLast?

/-- temperature_cache.rs 37-42 -/
def getColdest : M F (Hct F) := do need (← getHctsByTemp).head?

/-- temperature_cache.rs 204-215 -/
def relativeTemperature (hct : Hct F) : M F F := do
  let warmestTemp ← tempOf (← getTempsByHct) (← getWarmest)
  let coldestTemp ← tempOf (← getTempsByHct) (← getColdest)
  let range := warmestTemp - coldestTemp
  let differenceFromColdest := (← tempOf (← getTempsByHct) hct)
    - (← tempOf (← getTempsByHct) (← getColdest))
  if range == 0.0 then return 0.5
  return differenceFromColdest / range

/-- temperature_cache.rs 218-237 -/
def getInputRelativeTemperature : M F F := do
  let self ← get
  if self.inputRelativeTemperature ≥ 0.0 then return self.inputRelativeTemperature
  let coldestTemp ← tempOf (← getTempsByHct) (← getColdest)
  let range := (← tempOf (← getTempsByHct) (← getWarmest)) - coldestTemp
  let differenceFromColdest := (← tempOf (← getTempsByHct) self.input) - coldestTemp
  let inputRelativeTemp : F := if range == 0.0 then 0.5 else differenceFromColdest / range
  modify fun s => { s with inputRelativeTemperature := inputRelativeTemp }
  return inputRelativeTemp

/-- `x as usize` for a float: truncation, saturating at 0 below.  (Above, the model saturates at the
`i64` limit instead of the `u64` limit; both are out of range of every list.) -/
def toUsize (x : F) : Nat := (Fl.toI64 x).toNat

/-- The loop of `get_complement`, temperature_cache.rs 183-197, over the remaining addends. -/
def complementLoop (hctsByHue : List (Hct F)) (temps : List (Int × F))
    (startHue endHue coldestTemp range complementRelativeTemp : F) :
    List Nat → F → Hct F → Option (Hct F)
  | [], _, answer => some answer
  | hueAddend :: rest, smallestError, answer =>
    let hue := sanitizeDegreesDouble (startHue + 1.0 * Fl.ofInt hueAddend)
    if !isBetween hue startHue endHue then
      complementLoop hctsByHue temps startHue endHue coldestTemp range complementRelativeTemp
        rest smallestError answer
    else
      match hctsByHue[toUsize (Fl.round hue)]? with
      | none => none
      | some possibleAnswer =>
        match temps.lookup possibleAnswer.toInt with
        | none => none
        | some t =>
          let relativeTemp := (t - coldestTemp) / range
          let error := Fl.abs (complementRelativeTemp - relativeTemp)
          if error < smallestError then
            complementLoop hctsByHue temps startHue endHue coldestTemp range
              complementRelativeTemp rest error possibleAnswer
          else
            complementLoop hctsByHue temps startHue endHue coldestTemp range
              complementRelativeTemp rest smallestError answer

/-- temperature_cache.rs 150-200 -/
def getComplement : M F (Hct F) := do
  let self ← get
  match self.complement with
  | some c => return c
  | none =>
    let coldestHue := (← getColdest).getHue
    let coldestTemp ← tempOf (← getTempsByHct) (← getColdest)
    let warmestHue := (← getWarmest).getHue
    let warmestTemp ← tempOf (← getTempsByHct) (← getWarmest)
    let range := warmestTemp - coldestTemp
    let startHueIsColdestToWarmest := isBetween self.input.getHue coldestHue warmestHue
    let startHue := if startHueIsColdestToWarmest then warmestHue else coldestHue
    let endHue := if startHueIsColdestToWarmest then coldestHue else warmestHue
    -- lines 178, 190, 191 read the fields filled by the calls above
    let answer ← need ((← get).hctsByHue[toUsize (Fl.round self.input.getHue)]?)
    let complementRelativeTemp := 1.0 - (← getInputRelativeTemperature)
    let cache ← get
    let answer ← need (complementLoop cache.hctsByHue cache.tempsByHct startHue endHue
      coldestTemp range complementRelativeTemp (List.range 360) 1000.0 answer)
    modify fun s => { s with complement := some answer }
    return answer

/-- `list[i as usize]` for an `i64` `i`: a negative index wraps to a huge one and panics. -/
def indexI64 {α : Type} (l : List α) (i : Int) : M F α :=
  if 0 ≤ i then need l[i.toNat]? else panic

/-- The total absolute temperature change around the wheel, temperature_cache.rs 65-73, over the
remaining `i`s; result is `absolute_total_temp_delta`. -/
def totalDeltaLoop (startHue : Int) : List Nat → F → F → M F F
  | [], _, total => return total
  | i :: rest, lastTemp, total => do
    let hue := sanitizeDegreesInt (startHue + i)
    let hct ← indexI64 (← getHctsByHue) hue
    let temp ← relativeTemperature hct
    let tempDelta := Fl.abs (temp - lastTemp)
    totalDeltaLoop startHue rest temp (total + tempDelta)

/-- The inner `while`, temperature_cache.rs 96-102; `n` bounds the number of colours still missing.
Returns the extended list. -/
def satisfyLoop (hct : Hct F) (totalTempDelta tempStep : F) :
    Nat → Bool → Nat → List (Hct F) → List (Hct F)
  | 0, _, _, allColors => allColors
  | n + 1, indexSatisfied, indexAddend, allColors =>
    if indexSatisfied then
      let allColors := allColors ++ [hct]
      let desired := Fl.ofInt (allColors.length + indexAddend : Nat) * tempStep
      satisfyLoop hct totalTempDelta tempStep n (decide (totalTempDelta ≥ desired))
        (indexAddend + 1) allColors
    else allColors

/-- The outer `while`, temperature_cache.rs 78-111.  `fuel` is `361 - hue_addend`; the loop breaks when
`hue_addend` exceeds 360, so `fuel` never reaches 0 before the break (line 105). -/
def divisionsLoop (startHue divisions : Int) (tempStep : F) :
    Nat → Int → F → F → List (Hct F) → M F (List (Hct F))
  | 0, _, _, _, allColors => return allColors
  | fuel + 1, hueAddend, lastTemp, totalTempDelta, allColors => do
    if (allColors.length : Int) < divisions then
      let hue := sanitizeDegreesInt (startHue + hueAddend)
      let hct ← indexI64 (← getHctsByHue) hue
      let temp ← relativeTemperature hct
      let tempDelta := Fl.abs (temp - lastTemp)
      let totalTempDelta := totalTempDelta + tempDelta
      let desired := Fl.ofInt (allColors.length : Nat) * tempStep
      let allColors := satisfyLoop hct totalTempDelta tempStep
        (divisions - allColors.length).toNat (decide (totalTempDelta ≥ desired)) 1 allColors
      let hueAddend := hueAddend + 1
      if hueAddend > 360 then
        return allColors ++ List.replicate (divisions - allColors.length).toNat hct
      else divisionsLoop startHue divisions tempStep fuel hueAddend temp totalTempDelta allColors
    else return allColors

/-- `while index < 0 { index = len + index }`, temperature_cache.rs 120-122, 133-135, with at most
`fuel` rounds (`fuel = -index` suffices as `len ≥ 1`). -/
def raiseIndex (len : Int) : Nat → Int → Int
  | 0, index => index
  | fuel + 1, index => if index < 0 then raiseIndex len fuel (len + index) else index

/-- temperature_cache.rs 119-125, 132-138 -/
def wrapIndex (len : Int) (index : Int) : Int :=
  let index := raiseIndex len (-index).toNat index
  if index ≥ len then index.tmod len else index

/-- temperature_cache.rs 113-142: pick the answers around the input. -/
def pickAnswers (input : Hct F) (allColors : List (Hct F)) (count : Int) : M F (List (Hct F)) := do
  let len : Int := allColors.length
  let increaseHueCount : Int := Fl.toI64 (Fl.floor ((Fl.ofInt (count - 1) : F) / 2.0))
  let before ← (List.range increaseHueCount.toNat).foldlM (fun answers (i : Nat) => do
    let c ← indexI64 allColors (wrapIndex len (0 - (i + 1)))
    return c :: answers) [input]
  let decreaseHueCount := count - increaseHueCount - 1
  (List.range decreaseHueCount.toNat).foldlM (fun answers (i : Nat) => do
    let c ← indexI64 allColors (wrapIndex len (i + 1))
    return answers ++ [c]) before

/-- temperature_cache.rs 55-143 -/
def analogous (count divisions : Option Int) : M F (List (Hct F)) := do
  let count := count.getD 5
  let divisions := divisions.getD 12
  let self ← get
  let startHue : Int := Fl.toI64 (Fl.round self.input.getHue)
  let startHct ← indexI64 (← getHctsByHue) startHue
  let startTemp ← relativeTemperature startHct
  let absoluteTotalTempDelta ← totalDeltaLoop startHue (List.range 360) startTemp 0.0
  let tempStep := absoluteTotalTempDelta / Fl.ofInt divisions
  let lastTemp ← relativeTemperature startHct
  let allColors ← divisionsLoop startHue divisions tempStep 360 1 lastTemp 0.0 [startHct]
  pickAnswers self.input allColors count

end TemperatureCache
end Mcu
