import Verif.Model.Cam16

/-! Model of /repo/src/hct/src/hct_solver.rs. -/

namespace Mcu.HctSolver

open MathUtils ColorUtils

variable {F : Type} [Fl F]

/-- hct_solver.rs 11-27 -/
def scaledDiscountFromLinrgb : Vec3 (Vec3 F) :=
  ⟨⟨0.001200833568784504, 0.002389694492170889, 0.0002795742885861124⟩,
   ⟨0.0005891086651375999, 0.0029785502573438758, 0.0003270666104008398⟩,
   ⟨0.00010146692491640572, 0.0005364214359186694, 0.0032979401770712076⟩⟩

/-- hct_solver.rs 29-33 -/
def linrgbFromScaledDiscount : Vec3 (Vec3 F) :=
  ⟨⟨1373.2198709594231, -1100.4251190754821, -7.278681089101213⟩,
   ⟨-271.815969077903, 559.6580465940733, -32.46047482791194⟩,
   ⟨1.9622899599665666, -57.173814538844006, 308.7233197812385⟩⟩

/-- hct_solver.rs 35-37 -/
def yFromLinrgb : Vec3 F := ⟨0.2126, 0.7152, 0.0722⟩

/-- hct_solver.rs 39-297: the decimal literals of `_critical_planes`, each as (digits, number of digits
after the point): `(15176349177441876, 18)` is the literal `0.015176349177441876`. -/
def criticalPlanesTable : List (Nat × Nat) := [
  (15176349177441876, 18), (45529047532325624, 18), (7588174588720938, 17), (10623444424209313, 17),
  (13658714259697685, 17), (16693984095186062, 17), (19729253930674434, 17), (2276452376616281, 16),
  (2579979360165119, 16), (28835063437139563, 17), (3188300904430532, 16), (350925934958123, 15),
  (3848314933096426, 16), (42057480301049466, 17), (458183274052838, 15), (4976837250274023, 16),
  (5391024159806381, 16), (5824650784040898, 16), (6277969426914107, 16), (6751227633498623, 16),
  (7244668422128921, 16), (775853049866786, 15), (829304845476233, 15), (8848452951698498, 16),
  (942497089126609, 15), (10022825574869039, 16), (10642236851973577, 16), (11283421258858297, 16),
  (11946592148522128, 16), (12631959812511864, 16), (13339731595349034, 16), (1407011200216447, 15),
  (14823302800086415, 16), (15599503113873272, 16), (16398909516233677, 16), (17221716113234105, 16),
  (18068114625156377, 16), (18938294463134073, 16), (19832442801866852, 16), (2075074464868551, 15),
  (21693382909216234, 16), (22660538449872063, 16), (236523901573795, 14), (24669114995532007, 16),
  (25710888059345764, 16), (26777882626779785, 16), (27870270208169257, 16), (2898822059350997, 15),
  (30131901897720907, 16), (31301480604002863, 16), (32497121605402226, 16), (33718988244681087, 16),
  (34967242352587946, 16), (3624204428461639, 15), (3754355295633311, 15), (3887192587735158, 15),
  (4022731918402185, 15), (4160988767090289, 15), (4301978482107941, 15), (4445716283538092, 15),
  (4592217266055746, 15), (4741496401646282, 15), (4893568542229298, 15), (5048448422192488, 15),
  (520615066083972, 14), (53666897647573375, 16), (55300801301023865, 16), (5696336044816294, 15),
  (5865471690767354, 15), (6037501145825082, 15), (6212438385869475, 15), (6390297286737924, 15),
  (6571091626112461, 15), (67548350853498045, 16), (6941541251256611, 15), (7131223617812143, 15),
  (7323895587840543, 15), (75195704746346665, 16), (77182615035334345, 16), (7919981813454504, 15),
  (8124744458384042, 15), (8332562408825165, 15), (8543448553206703, 15), (8757415699253682, 15),
  (8974476575321063, 15), (9194643831691977, 15), (9417930041841839, 15), (9644347703669503, 15),
  (9873909240696694, 15), (10106627003236781, 15), (10342513269534024, 15), (1058158024687427, 14),
  (108238400726681, 13), (11069304815507364, 15), (11317986476196008, 15), (11569896988756009, 15),
  (11825048221409341, 15), (12083451977536606, 15), (12345119996613247, 15), (12610063955123938, 15),
  (12878295467455942, 15), (13149826086772048, 15), (1342466730586372, 14), (13702830557985108, 15),
  (13984327217668513, 15), (14269168601521828, 15), (1455736596900856, 14), (14848930523210871, 15),
  (15143873411576273, 15), (1544220572664832, 14), (15743938506781891, 15), (1604908273684337, 14),
  (1635764934889634, 14), (1666964922287304, 14), (16985093187232053, 15), (1730399201960269, 14),
  (1762635644741625, 14), (1795219714852476, 14), (18281524751807332, 15), (18614349837764564, 15),
  (1895068293910138, 14), (19290534541298456, 15), (19633915083172692, 15), (1998083495742689, 14),
  (20331304511189067, 15), (20685334046541502, 15), (21042933821039977, 15), (21404114048223256, 15),
  (2176888489811322, 14), (22137256497705877, 15), (2250923893145328, 14), (22884842241736916, 15),
  (23264076429332462, 15), (236469514538663, 13), (24033477234264016, 15), (2442366364919083, 14),
  (24817520537484558, 15), (2521505769858089, 14), (2561628489293138, 14), (26021211842414342, 15),
  (26429848230738664, 15), (26842203703840827, 15), (27258287870275353, 15), (27678110301598522, 15),
  (2810168053274597, 14), (28529008062403893, 15), (2896010235337422, 14), (2939497283293396, 14),
  (2983362889318845, 14), (30276079891419332, 15), (30722335150426627, 15), (31172403958865512, 15),
  (3162629557157785, 14), (3208401920991837, 14), (3254558406207592, 14), (33010999283389665, 15),
  (334802739966603, 13), (33953417292456834, 15), (34430438229418264, 15), (34911345834551085, 15),
  (3539614910352207, 14), (3588485700094671, 14), (3637747846067349, 14), (3687402238606382, 14),
  (3737449765026789, 14), (3787891309649659, 14), (3838727753828926, 14), (3889959975977785, 14),
  (3941588851594697, 14), (3993615253289054, 14), (40460400508064545, 15), (4098864111053629, 14),
  (41520882981230194, 15), (4205713473317016, 14), (42597404951718396, 15), (43141702194811224, 15),
  (436900349931913, 13), (4424241185063697, 14), (44798841244188324, 15), (4535933162437017, 14),
  (4592389141541209, 14), (4649252901546552, 14), (47065252796817916, 15), (4764207110610409, 14),
  (4822299226451468, 14), (48808024568002054, 15), (493971762874833, 13), (499904556690408, 13),
  (50587870934119984, 15), (51189430279724725, 15), (5179514187861014, 14), (5240501387947288, 14),
  (530190544071392, 13), (53637271562750364, 15), (54259673423945976, 15), (5488626804504493, 14),
  (55517063457223934, 15), (5615206766869424, 14), (5679128866487574, 14), (5743473440856916, 14),
  (5808241284012621, 14), (58734331877617365, 15), (5939049941699807, 14), (6005092333227251, 14),
  (60715611475655585, 15), (6138457167773311, 14), (62057811747619894, 15), (627353394731159, 13),
  (63417162620860914, 15), (6410328893648692, 14), (6479372614476921, 14), (6548848194977529, 14),
  (6618756403501224, 14), (6689098006357258, 14), (6759873767827808, 14), (6831084450182222, 14),
  (6902730813691093, 14), (6974813616640164, 14), (7047333615344107, 14), (7120291564160104, 14),
  (7193688215501312, 14), (7267524319850172, 14), (7341800625771542, 14), (7416517879925733, 14),
  (749167682708136, 13), (7567278210128072, 14), (7643322770089146, 14), (771981124613393, 13),
  (7796744375590167, 14), (7874122893956174, 14), (7951947534912904, 14), (8030219030335869, 14),
  (8108938110306934, 14), (8188105503125999, 14), (8267721935322541, 14), (834778813166706, 13),
  (8428304815182372, 14), (8509272707154808, 14), (8590692527145302, 14), (8672564993000343, 14),
  (8754890820862819, 14), (883767072518277, 13), (892090541872801, 13), (9004595612594655, 14),
  (9088742016217518, 14), (9173345337380438, 14), (9258406282226491, 14), (9343925555268066, 14),
  (9429903859396902, 14), (9516341895893969, 14), (9603240364439274, 14), (969059996312159, 13),
  (9778421388448044, 14), (986670533535366, 13), (9955452497210776, 14)]

/-- hct_solver.rs 39-297 -/
def criticalPlanes : List F := criticalPlanesTable.map fun p => OfScientific.ofScientific p.1 true p.2

/-- hct_solver.rs 303-305 -/
def sanitizeRadians (angle : F) : F := Fl.fmod (angle + Fl.pi * 8.0) (Fl.pi * 2.0)

/-- hct_solver.rs 313-324 -/
def trueDelinearized (rgbComponent : F) : F :=
  let normalized := rgbComponent / 100.0
  let delinearized : F :=
    if normalized ≤ 0.0031308 then normalized * 12.92
    else 1.055 * Fl.powf normalized (1.0 / 2.4) - 0.055
  delinearized * 255.0

/-- hct_solver.rs 326-329 -/
def chromaticAdaptation (component : F) : F :=
  let af := Fl.powf (Fl.abs component) 0.42
  Fl.ofInt (signum component) * 400.0 * af / (af + 27.13)

/-- hct_solver.rs 333-349 -/
def hueOf (linrgb : Vec3 F) : F :=
  let scaledDiscount := matrixMultiply linrgb scaledDiscountFromLinrgb
  let rA := chromaticAdaptation scaledDiscount.x0
  let gA := chromaticAdaptation scaledDiscount.x1
  let bA := chromaticAdaptation scaledDiscount.x2
  let a := (11.0 * rA + (-12.0) * gA + bA) / 11.0
  let b := (rA + gA - 2.0 * bA) / 9.0
  Fl.atan2 b a

/-- hct_solver.rs 351-355 -/
def areInCyclicOrder (a b c : F) : Bool :=
  let deltaAB := sanitizeRadians (b - a)
  let deltaAC := sanitizeRadians (c - a)
  deltaAB < deltaAC

/-- hct_solver.rs 361-363 -/
def intercept (source mid target : F) : F := (mid - source) / (target - source)

/-- hct_solver.rs 365-372 -/
def lerpPoint (source : Vec3 F) (t : F) (target : Vec3 F) : Vec3 F :=
  ⟨source.x0 + (target.x0 - source.x0) * t,
   source.x1 + (target.x1 - source.x1) * t,
   source.x2 + (target.x2 - source.x2) * t⟩

/-- hct_solver.rs 382-390.  `axis` is 0, 1 or 2 at the only call (line 540). -/
def setCoordinate (source : Vec3 F) (coordinate : F) (target : Vec3 F) (axis : Fin 3) : Vec3 F :=
  let t := intercept (source.get axis) coordinate (target.get axis)
  lerpPoint source t target

/-- hct_solver.rs 392-394 -/
def isBounded (x : F) : Bool := (0.0 : F) ≤ x && x ≤ (100.0 : F)

/-- hct_solver.rs 404-451 -/
def nthVertex (y : F) (n : Nat) : Vec3 F :=
  let kR : F := yFromLinrgb.x0
  let kG : F := yFromLinrgb.x1
  let kB : F := yFromLinrgb.x2
  let coordA : F := if n % 4 ≤ 1 then 0.0 else 100.0
  let coordB : F := if n % 2 = 0 then 0.0 else 100.0
  if n < 4 then
    let g := coordA
    let b := coordB
    let r := (y - g * kG - b * kB) / kR
    if isBounded r then ⟨r, g, b⟩ else ⟨-1.0, -1.0, -1.0⟩
  else if n < 8 then
    let b := coordA
    let r := coordB
    let g := (y - r * kR - b * kB) / kG
    if isBounded g then ⟨r, g, b⟩ else ⟨-1.0, -1.0, -1.0⟩
  else
    let r := coordA
    let g := coordB
    let b := (y - r * kR - g * kG) / kB
    if isBounded b then ⟨r, g, b⟩ else ⟨-1.0, -1.0, -1.0⟩

/-- The mutable variables of `_bisect_to_segment`, hct_solver.rs 459-464. -/
structure SegState (F : Type) where
  left : Vec3 F
  right : Vec3 F
  leftHue : F
  rightHue : F
  initialized : Bool
  uncut : Bool

/-- One iteration of the loop body, hct_solver.rs 466-488. -/
def segStep (y targetHue : F) (s : SegState F) (n : Nat) : SegState F :=
  let mid := nthVertex y n
  if mid.x0 < 0.0 then s
  else
    let midHue := hueOf mid
    if !s.initialized then
      { s with left := mid, right := mid, leftHue := midHue, rightHue := midHue, initialized := true }
    else if s.uncut || areInCyclicOrder s.leftHue midHue s.rightHue then
      if areInCyclicOrder s.leftHue targetHue midHue then
        { s with uncut := false, right := mid, rightHue := midHue }
      else
        { s with uncut := false, left := mid, leftHue := midHue }
    else s

/-- hct_solver.rs 459-464 -/
def segInit : SegState F :=
  { left := ⟨-1.0, -1.0, -1.0⟩, right := ⟨-1.0, -1.0, -1.0⟩, leftHue := 0.0, rightHue := 0.0,
    initialized := false, uncut := true }

/-- hct_solver.rs 458-491 -/
def bisectToSegment (y targetHue : F) : Vec3 F × Vec3 F :=
  let s := (List.range 12).foldl (segStep y targetHue) segInit
  (s.left, s.right)

/-- hct_solver.rs 493-500 -/
def midpoint (a b : Vec3 F) : Vec3 F :=
  ⟨(a.x0 + b.x0) / 2.0, (a.x1 + b.x1) / 2.0, (a.x2 + b.x2) / 2.0⟩

/-- hct_solver.rs 502-504 -/
def criticalPlaneBelow (x : F) : Int := Fl.toI64 (Fl.floor (x - 0.5))

/-- hct_solver.rs 506-508 -/
def criticalPlaneAbove (x : F) : Int := Fl.toI64 (Fl.ceil (x - 0.5))

/-- The mutable variables of `_bisect_to_limit`, hct_solver.rs 517-531.  `inBounds` is an addition of
the model: it becomes false if the table index on line 538 is out of range (a panic in Rust). -/
structure LimState (F : Type) where
  left : Vec3 F
  leftHue : F
  right : Vec3 F
  lPlane : Int
  rPlane : Int
  inBounds : Bool

/-- The inner loop `for _i in 0..8`, hct_solver.rs 533-551. -/
def limLoop (targetHue : F) (axis : Fin 3) : Nat → LimState F → LimState F
  | 0, s => s
  | n + 1, s =>
    if ((s.rPlane - s.lPlane).natAbs : Int) ≤ 1 then s
    else
      let mPlane := Fl.toI64 (Fl.floor (Fl.ofInt (s.lPlane + s.rPlane) / (2.0 : F)))
      let planes : List F := criticalPlanes
      let ok := decide (0 ≤ mPlane ∧ mPlane < planes.length)
      let midPlaneCoordinate := planes.getD mPlane.toNat 0.0
      let mid := setCoordinate s.left midPlaneCoordinate s.right axis
      let midHue := hueOf mid
      if areInCyclicOrder s.leftHue targetHue midHue then
        limLoop targetHue axis n
          { s with right := mid, rPlane := mPlane, inBounds := s.inBounds && ok }
      else
        limLoop targetHue axis n
          { s with left := mid, leftHue := midHue, lPlane := mPlane, inBounds := s.inBounds && ok }

/-- One iteration of the outer loop `for axis in 0..3`, hct_solver.rs 520-553. -/
def limAxis (targetHue : F) (s : LimState F) (axis : Fin 3) : LimState F :=
  if s.left.get axis != s.right.get axis then
    let planes : Int × Int :=
      if s.left.get axis < s.right.get axis then
        (criticalPlaneBelow (trueDelinearized (s.left.get axis)),
         criticalPlaneAbove (trueDelinearized (s.right.get axis)))
      else
        (criticalPlaneAbove (trueDelinearized (s.left.get axis)),
         criticalPlaneBelow (trueDelinearized (s.right.get axis)))
    limLoop targetHue axis 8 { s with lPlane := planes.1, rPlane := planes.2 }
  else s

/-- hct_solver.rs 516-553: the final state of the search. -/
def bisectToLimitState (y targetHue : F) : LimState F :=
  let segment := bisectToSegment y targetHue
  let s : LimState F :=
    { left := segment.1, leftHue := hueOf segment.1, right := segment.2,
      lPlane := -1, rPlane := 255, inBounds := true }
  [(0 : Fin 3), 1, 2].foldl (limAxis targetHue) s

/-- hct_solver.rs 515-555 -/
def bisectToLimit (y targetHue : F) : Vec3 F :=
  let s := bisectToLimitState y targetHue
  midpoint s.left s.right

/-- hct_solver.rs 557-561 -/
def inverseChromaticAdaptation (adapted : F) : F :=
  let adaptedAbs := Fl.abs adapted
  let base := Fl.fmax 0.0 (27.13 * adaptedAbs / (400.0 - adaptedAbs))
  Fl.ofInt (signum adapted) * Fl.powf base (1.0 / 0.42)

/-- hct_solver.rs 585-614: the linear RGB colour for lightness `j`. -/
def linrgbOfJ (hueRadians chroma : F) (j : F) : Vec3 F :=
  let vc : ViewingConditions F := ViewingConditions.sRgb
  let tInnerCoeff := 1.0 / Fl.powf (1.64 - Fl.powf 0.29 vc.backgroundYToWhitePointY) 0.73
  let eHue := 0.25 * (Fl.cos (hueRadians + 2.0) + 3.8)
  let p1 := eHue * (50000.0 / 13.0) * vc.nC * vc.ncb
  let hSin := Fl.sin hueRadians
  let hCos := Fl.cos hueRadians
  let jNormalized := j / 100.0
  let alpha : F := if chroma == 0.0 || j == 0.0 then 0.0 else chroma / Fl.sqrt jNormalized
  let t := Fl.powf (alpha * tInnerCoeff) (1.0 / 0.9)
  let ac := vc.aw * Fl.powf jNormalized (1.0 / vc.c / vc.z)
  let p2 := ac / vc.nbb
  let gamma := 23.0 * (p2 + 0.305) * t / (23.0 * p1 + 11.0 * t * hCos + 108.0 * t * hSin)
  let a := gamma * hCos
  let b := gamma * hSin
  let rA := (460.0 * p2 + 451.0 * a + 288.0 * b) / 1403.0
  let gA := (460.0 * p2 - 891.0 * a - 261.0 * b) / 1403.0
  let bA := (460.0 * p2 - 220.0 * a - 6300.0 * b) / 1403.0
  let rCscaled := inverseChromaticAdaptation rA
  let gCscaled := inverseChromaticAdaptation gA
  let bCscaled := inverseChromaticAdaptation bA
  matrixMultiply ⟨rCscaled, gCscaled, bCscaled⟩ linrgbFromScaledDiscount

/-- hct_solver.rs 581-638: the Newton loop with `n` rounds left; `iteration_round == 4` is the last
round, `n = 0` after it. -/
def findLoop (hueRadians chroma y : F) : Nat → F → Int
  | 0, _ => 0
  | n + 1, j =>
    let linrgb := linrgbOfJ hueRadians chroma j
    if linrgb.x0 < 0.0 ∨ linrgb.x1 < 0.0 ∨ linrgb.x2 < 0.0 then 0
    else
      let kR : F := yFromLinrgb.x0
      let kG : F := yFromLinrgb.x1
      let kB : F := yFromLinrgb.x2
      let fnj := kR * linrgb.x0 + kG * linrgb.x1 + kB * linrgb.x2
      if fnj ≤ 0.0 then 0
      else if n = 0 ∨ Fl.abs (fnj - y) < 0.002 then
        if linrgb.x0 > 100.01 ∨ linrgb.x1 > 100.01 ∨ linrgb.x2 > 100.01 then 0
        else argbFromLinrgb linrgb
      else
        findLoop hueRadians chroma y n (j - (fnj - y) * j / (2.0 * fnj))

/-- hct_solver.rs 567-639 -/
def findResultByJ (hueRadians chroma y : F) : Int :=
  findLoop hueRadians chroma y 5 (Fl.sqrt y * 11.0)

/-- hct_solver.rs 649-662 -/
def solveToInt (hueDegrees chroma lstar : F) : Int :=
  if chroma < 0.0001 ∨ lstar < 0.0001 ∨ lstar > 99.9999 then argbFromLstar lstar
  else
    let hueDegrees := sanitizeDegreesDouble hueDegrees
    let hueRadians := hueDegrees / 180.0 * Fl.pi
    let y := yFromLstar lstar
    let exactAnswer := findResultByJ hueRadians chroma y
    if exactAnswer ≠ 0 then exactAnswer
    else
      let linrgb := bisectToLimit y hueRadians
      argbFromLinrgb linrgb

/-- hct_solver.rs 672-674 -/
def solveToCam (hueDegrees chroma lstar : F) : Cam16 F :=
  Cam16.fromInt (solveToInt hueDegrees chroma lstar)

end Mcu.HctSolver
