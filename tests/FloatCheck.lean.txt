import FloatInst
open Mcu

def check (name : String) (b : Bool) : IO Unit :=
  if b then pure () else IO.println s!"FAIL {name}"

def close (a b : Float) : Bool := (a - b).abs < 0.001

abbrev H := Hct Float
def hx (n : Int) : H := Hct.fromInt n

def camCheck (argb : Int) (j c h m s q : Float) : IO Unit := do
  let cam : Cam16 Float := Cam16.fromInt argb
  check s!"cam {argb}" (close cam.j j && close cam.chroma c && close cam.hue h && close cam.m m
    && close cam.s s && close cam.q q)

def run {α : Type} (m : TemperatureCache.M Float α) (argb : Int) : Option α :=
  m.run' (TemperatureCache.new (hx argb))

def tone (s : DynamicScheme Float) (r : Material.Role) : Float :=
  ((DynamicColor.getTone (Material.registry 200) s 10 r)).getD (-1)

def main : IO Unit := do
  camCheck 0xffff0000 46.445 113.357 27.408 89.494 91.889 105.988
  camCheck 0xff00ff00 79.331 108.410 142.139 85.587 78.604 138.520
  camCheck 0xff0000ff 25.465 87.230 282.788 68.867 93.674 78.481
  camCheck 0xff000000 0 0 0 0 0 0
  camCheck 0xffffffff 100.0 2.869 209.492 2.265 12.068 155.521
  for argb in [0xffff0000, 0xff00ff00, 0xff0000ff, 0xffffffff, 0xff000000, 0xff123456] do
    check s!"cam toInt {argb}" ((Cam16.fromInt argb : Cam16 Float).toInt == argb)
    let h := hx argb
    check s!"hct {argb}" ((Hct.fromHct h.hue h.chroma h.tone).toInt == argb)
  check "as_list" ((TonalPalette.of (hx 0xff0000ff).hue (hx 0xff0000ff).chroma).getAsList.1 ==
    [0xff000000, 0xff00006e, 0xff0001ac, 0xff0000ef, 0xff343dff, 0xff5a64ff,
     0xff7c84ff, 0xff9da3ff, 0xffbec2ff, 0xffe0e0ff, 0xfff1efff, 0xfffffbff, 0xffffffff])
  check "raw temp" (close (TemperatureCache.rawTemperature (hx 0xff0000ff)) (-1.393)
    && close (TemperatureCache.rawTemperature (hx 0xffff0000)) 2.351
    && close (TemperatureCache.rawTemperature (hx 0xff00ff00)) (-0.267)
    && close (TemperatureCache.rawTemperature (hx 0xffffffff)) (-0.5))
  check "rel temp" (close ((run TemperatureCache.getInputRelativeTemperature 0xff00ff00).getD 9) 0.467)
  for (a, b) in [(0xff0000ff, 0xff9d0002), (0xffff0000, 0xff007bfc), (0xff00ff00, 0xffffd2c9),
      (0xffffffff, 0xffffffff), (0xff000000, 0xff000000)] do
    check s!"complement {a}" ((run TemperatureCache.getComplement a).map Hct.toInt == some b)
  for (a, b) in [(0xff0000ff, [0xff00590c, 0xff00564e, 0xff0000ff, 0xff6700cc, 0xff81009f]),
      (0xffff0000, [0xfff60082, 0xfffc004c, 0xffff0000, 0xffd95500, 0xffaf7200]),
      (0xff00ff00, [0xffcee900, 0xff92f500, 0xff00ff00, 0xff00fd6f, 0xff00fab3])] do
    check s!"analogous {a}" ((run (TemperatureCache.analogous none none) a).map (·.map Hct.toInt) == some b)
  let wu (px : List Int) (n : Int) := QuantizerWu.quantizeEntries Float (QuantizerMap.quantize px) n
  check "wu 1" (wu [0xff141216] 256 == some [0xff141216])
  check "wu 2" (wu [0xffff0000] 256 == some [0xffff0000])
  check "wu 3" (((wu [0xffff0000, 0xff00ff00, 0xff0000ff] 256).map (·.mergeSort)) ==
    some [0xff0000ff, 0xff00ff00, 0xffff0000])
  check "wu 4" (((wu [0xffff0000, 0xffff0000, 0xff00ff00] 256).map (·.mergeSort)) ==
    some [0xff00ff00, 0xffff0000])
  check "wsmeans" ((QuantizerWsmeans.quantize Float [0xffff0000, 0xff00ff00, 0xff0000ff] 256
     [0xffff0000, 0xff00ff00, 0xff0000ff] none none []).map (·.colorToCount)
     == some [(0xffff0000, 1), (0xff00ff00, 1), (0xff0000ff, 1)])
  let m := Schemes.monochrome (hx 0xff0000ff) true 0.0
  check "mono" ([Material.Role.primary, .onPrimary, .primaryContainer, .onPrimaryContainer, .secondary,
    .onSecondary, .secondaryContainer, .onSecondaryContainer, .tertiary, .onTertiary,
    .tertiaryContainer, .onTertiaryContainer].map (tone m) ==
    [100.0, 10.0, 85.0, 0.0, 80.0, 10.0, 30.0, 90.0, 90.0, 10.0, 60.0, 0.0])

  check "score prioritizes_chroma" (Score.score Float [(0xff000000, 1), (0xffffffff, 1), (0xff0000ff, 1)] (some 4) none none == some [0xff0000ff])
  check "score prioritizes_chroma_when_proportions_equal" (Score.score Float [(0xffff0000, 1), (0xff00ff00, 1), (0xff0000ff, 1)] (some 4) none none == some [0xffff0000, 0xff00ff00, 0xff0000ff])
  check "score generates_g_blue_when_no_colors_available" (Score.score Float [(0xff000000, 1)] (some 4) none none == some [0xff4285f4])
  check "score dedupes_nearby_hues" (Score.score Float [(0xff008772, 1), (0xff318477, 1)] (some 4) none none == some [0xff008772])
  check "score maximizes_hue_distance" (Score.score Float [(0xff008772, 1), (0xff008587, 1), (0xff007ebc, 1)] (some 2) none none == some [0xff007ebc, 0xff008772])
  check "score passes_generated_scenario_one" (Score.score Float [(0xff7ea16d, 67), (0xffd8ccae, 67), (0xff835c0d, 49)] (some 3) (some 0xff8d3819) (some false) == some [0xff7ea16d, 0xffd8ccae, 0xff835c0d])
  check "score passes_generated_scenario_two" (Score.score Float [(0xffd33881, 14), (0xff3205cc, 77), (0xff0b48cf, 36), (0xffa08f5d, 81)] (some 4) (some 0xff7d772b) (some true) == some [0xff3205cc, 0xffa08f5d, 0xffd33881])
  check "score passes_generated_scenario_three" (Score.score Float [(0xffbe94a6, 23), (0xffc33fd7, 42), (0xff899f36, 90), (0xff94c574, 82)] (some 3) (some 0xffaa79a4) (some true) == some [0xff94c574, 0xffc33fd7, 0xffbe94a6])
  check "score passes_generated_scenario_four" (Score.score Float [(0xffdf241c, 85), (0xff685859, 44), (0xffd06d5f, 34), (0xff561c54, 27), (0xff713090, 88)] (some 5) (some 0xff58c19c) (some false) == some [0xffdf241c, 0xff561c54])
  check "score passes_generated_scenario_five" (Score.score Float [(0xffbe66f8, 41), (0xff4bbda9, 88), (0xff80f6f9, 44), (0xffab8017, 43), (0xffe89307, 65)] (some 3) (some 0xff916691) (some false) == some [0xffab8017, 0xff4bbda9, 0xffbe66f8])
  check "score passes_generated_scenario_six" (Score.score Float [(0xff18ea8f, 93), (0xff327593, 18), (0xff066a18, 53), (0xfffa8a23, 74), (0xff04ca1f, 62)] (some 2) (some 0xff4c377a) (some false) == some [0xff18ea8f, 0xfffa8a23])
  check "score passes_generated_scenario_seven" (Score.score Float [(0xff2e05ed, 23), (0xff153e55, 90), (0xff9ab220, 23), (0xff153379, 66), (0xff68bcc3, 81)] (some 2) (some 0xfff588dc) (some true) == some [0xff2e05ed, 0xff9ab220])
  check "score passes_generated_scenario_eight" (Score.score Float [(0xff816ec5, 24), (0xff6dcb94, 19), (0xff3cae91, 98), (0xff5b542f, 25)] (some 1) (some 0xff84b0fd) (some false) == some [0xff3cae91])
  check "score passes_generated_scenario_nine" (Score.score Float [(0xff206f86, 52), (0xff4a620d, 96), (0xfff51401, 85), (0xff2b8ebf, 3), (0xff277766, 59)] (some 3) (some 0xff02b415) (some true) == some [0xfff51401, 0xff4a620d, 0xff2b8ebf])
  check "score passes_generated_scenario_ten" (Score.score Float [(0xff8b1d99, 54), (0xff27effe, 43), (0xff6f558d, 2), (0xff77fdf2, 78)] (some 4) (some 0xff5e7a10) (some true) == some [0xff27effe, 0xff8b1d99, 0xff6f558d])
  check "harmonize RED BLUE" (Blend.harmonize Float 0xffff0000 0xff0000ff == 0xffFB0057)
  check "harmonize RED GREEN" (Blend.harmonize Float 0xffff0000 0xff00ff00 == 0xffD85600)
  check "harmonize RED YELLOW" (Blend.harmonize Float 0xffff0000 0xffffff00 == 0xffD85600)
  check "harmonize BLUE GREEN" (Blend.harmonize Float 0xff0000ff 0xff00ff00 == 0xff0047A3)
  check "harmonize BLUE RED" (Blend.harmonize Float 0xff0000ff 0xffff0000 == 0xff5700DC)
  check "harmonize BLUE YELLOW" (Blend.harmonize Float 0xff0000ff 0xffffff00 == 0xff0047A3)
  check "harmonize GREEN BLUE" (Blend.harmonize Float 0xff00ff00 0xff0000ff == 0xff00FC94)
  check "harmonize GREEN RED" (Blend.harmonize Float 0xff00ff00 0xffff0000 == 0xffB1F000)
  check "harmonize GREEN YELLOW" (Blend.harmonize Float 0xff00ff00 0xffffff00 == 0xffB1F000)
  check "harmonize YELLOW BLUE" (Blend.harmonize Float 0xffffff00 0xff0000ff == 0xffEBFFBA)
  check "harmonize YELLOW GREEN" (Blend.harmonize Float 0xffffff00 0xff00ff00 == 0xffEBFFBA)
  check "harmonize YELLOW RED" (Blend.harmonize Float 0xffffff00 0xffff0000 == 0xffFFF6E3)
  IO.println "done"
