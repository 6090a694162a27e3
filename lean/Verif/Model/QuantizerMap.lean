import Verif.Model.ColorUtils

/-! Model of /repo/src/quantize/quantizer_map.rs. -/

namespace Mcu.QuantizerMap

open ColorUtils

/-- `HashMap<i64, i64>` as an association list: insert or replace (standard library). -/
def insert (m : List (Int × Int)) (k v : Int) : List (Int × Int) :=
  match m with
  | [] => [(k, v)]
  | p :: rest => if p.1 = k then (k, v) :: rest else p :: insert rest k v

/-- quantizer_map.rs 17-23: one pixel. -/
def addPixel (m : List (Int × Int)) (pixel : Int) : List (Int × Int) :=
  let alpha := alphaFromArgb pixel
  if alpha < 255 then m
  else insert m pixel ((m.lookup pixel).getD 0 + 1)

/-- quantizer_map.rs 9-25 (`_max_colors` and the third argument are ignored by the code). -/
def quantize (pixels : List Int) : List (Int × Int) := pixels.foldl addPixel []

end Mcu.QuantizerMap
