import Verif.Lemmas.CoverSplit

/-! Box checks, written by tools/gen_cover.py. -/

set_option maxRecDepth 100000

namespace Mcu.Lemmas

abbrev test_full_r : Cell → Bool := linTest [⟨10000002126, 7152, 722, 0⟩, ⟨2126, 10000007152, 722, 0⟩, ⟨2126, 7152, 10000000722, 0⟩, ⟨2126000000, 7152000000, 722000000, -160000000000⟩, ⟨-2126000000, -7152000000, -722000000, 1550000000000⟩, ⟨7937780000, -6937440000, -700340000, 0⟩] ⟨9240000000, 0, 0, -10000000000, 0, 0⟩

theorem check_full_r_ll : cover 50 5 2 test_full_r 38 ⟨17504225114193, 17590426825811⟩ ⟨16976459532861, 18427814881526⟩ ⟨16360733021306, 17592186044416⟩ = true := by decide +kernel

theorem check_full_r_lrl : cover 50 5 2 test_full_r 37 ⟨17590426825811, 17676628537429⟩ ⟨16976459532861, 17702137207193⟩ ⟨16360733021306, 17592186044416⟩ = true := by decide +kernel

theorem check_full_r_lrrll : cover 50 5 2 test_full_r 35 ⟨17590426825811, 17633527681620⟩ ⟨17702137207193, 18064976044359⟩ ⟨16360733021306, 17592186044416⟩ = true := by decide +kernel

theorem check_full_r_lrrlrl : cover 50 5 2 test_full_r 34 ⟨17590426825811, 17633527681620⟩ ⟨18064976044359, 18427814881526⟩ ⟨16360733021306, 16976459532861⟩ = true := by decide +kernel

theorem check_full_r_lrrlrrll : cover 50 5 2 test_full_r 32 ⟨17590426825811, 17611977253715⟩ ⟨18064976044359, 18246395462942⟩ ⟨16976459532861, 17592186044416⟩ = true := by decide +kernel

theorem check_full_r_lrrlrrlrl : cover 50 5 2 test_full_r 31 ⟨17590426825811, 17611977253715⟩ ⟨18246395462942, 18427814881526⟩ ⟨16976459532861, 17284322788638⟩ = true := by decide +kernel

theorem check_full_r_lrrlrrlrr : cover 50 5 2 test_full_r 31 ⟨17590426825811, 17611977253715⟩ ⟨18246395462942, 18427814881526⟩ ⟨17284322788638, 17592186044416⟩ = true := by decide +kernel

theorem check_full_r_lrrlrrlr : cover 50 5 2 test_full_r 32 ⟨17590426825811, 17611977253715⟩ ⟨18246395462942, 18427814881526⟩ ⟨16976459532861, 17592186044416⟩ = true :=
  cover_t (by decide +kernel) rfl check_full_r_lrrlrrlrl check_full_r_lrrlrrlrr

theorem check_full_r_lrrlrrl : cover 50 5 2 test_full_r 33 ⟨17590426825811, 17611977253715⟩ ⟨18064976044359, 18427814881526⟩ ⟨16976459532861, 17592186044416⟩ = true :=
  cover_z (by decide +kernel) rfl check_full_r_lrrlrrll check_full_r_lrrlrrlr

theorem check_full_r_lrrlrrr : cover 50 5 2 test_full_r 33 ⟨17611977253715, 17633527681620⟩ ⟨18064976044359, 18427814881526⟩ ⟨16976459532861, 17592186044416⟩ = true := by decide +kernel

theorem check_full_r_lrrlrr : cover 50 5 2 test_full_r 34 ⟨17590426825811, 17633527681620⟩ ⟨18064976044359, 18427814881526⟩ ⟨16976459532861, 17592186044416⟩ = true :=
  cover_x (by decide +kernel) rfl check_full_r_lrrlrrl check_full_r_lrrlrrr

theorem check_full_r_lrrlr : cover 50 5 2 test_full_r 35 ⟨17590426825811, 17633527681620⟩ ⟨18064976044359, 18427814881526⟩ ⟨16360733021306, 17592186044416⟩ = true :=
  cover_t (by decide +kernel) rfl check_full_r_lrrlrl check_full_r_lrrlrr

theorem check_full_r_lrrl : cover 50 5 2 test_full_r 36 ⟨17590426825811, 17633527681620⟩ ⟨17702137207193, 18427814881526⟩ ⟨16360733021306, 17592186044416⟩ = true :=
  cover_z (by decide +kernel) rfl check_full_r_lrrll check_full_r_lrrlr

theorem check_full_r_lrrr : cover 50 5 2 test_full_r 36 ⟨17633527681620, 17676628537429⟩ ⟨17702137207193, 18427814881526⟩ ⟨16360733021306, 17592186044416⟩ = true := by decide +kernel

theorem check_full_r_lrr : cover 50 5 2 test_full_r 37 ⟨17590426825811, 17676628537429⟩ ⟨17702137207193, 18427814881526⟩ ⟨16360733021306, 17592186044416⟩ = true :=
  cover_x (by decide +kernel) rfl check_full_r_lrrl check_full_r_lrrr

theorem check_full_r_lr : cover 50 5 2 test_full_r 38 ⟨17590426825811, 17676628537429⟩ ⟨16976459532861, 18427814881526⟩ ⟨16360733021306, 17592186044416⟩ = true :=
  cover_z (by decide +kernel) rfl check_full_r_lrl check_full_r_lrr

theorem check_full_r_l : cover 50 5 2 test_full_r 39 ⟨17504225114193, 17676628537429⟩ ⟨16976459532861, 18427814881526⟩ ⟨16360733021306, 17592186044416⟩ = true :=
  cover_x (by decide +kernel) rfl check_full_r_ll check_full_r_lr

theorem check_full_r_r : cover 50 5 2 test_full_r 39 ⟨17676628537429, 17849031960665⟩ ⟨16976459532861, 18427814881526⟩ ⟨16360733021306, 17592186044416⟩ = true := by decide +kernel

/-- A large red component. -/
theorem check_full_r : cover 50 5 2 (linTest [⟨10000002126, 7152, 722, 0⟩, ⟨2126, 10000007152, 722, 0⟩, ⟨2126, 7152, 10000000722, 0⟩, ⟨2126000000, 7152000000, 722000000, -160000000000⟩, ⟨-2126000000, -7152000000, -722000000, 1550000000000⟩, ⟨7937780000, -6937440000, -700340000, 0⟩] ⟨9240000000, 0, 0, -10000000000, 0, 0⟩) 40
    ⟨17504225114193, 17849031960665⟩ ⟨16976459532861, 18427814881526⟩ ⟨16360733021306, 17592186044416⟩ = true :=
  cover_x (by decide +kernel) rfl check_full_r_l check_full_r_r

abbrev test_full_g : Cell → Bool := linTest [⟨10000002126, 7152, 722, 0⟩, ⟨2126, 10000007152, 722, 0⟩, ⟨2126, 7152, 10000000722, 0⟩, ⟨2126000000, 7152000000, 722000000, -640000000000⟩, ⟨-2126000000, -7152000000, -722000000, 1550000000000⟩, ⟨-2062220000, 3062560000, -700340000, 0⟩] ⟨0, 9240000000, 0, 0, -10000000000, 0⟩

theorem check_full_g : cover 35 8 1 (linTest [⟨10000002126, 7152, 722, 0⟩, ⟨2126, 10000007152, 722, 0⟩, ⟨2126, 7152, 10000000722, 0⟩, ⟨2126000000, 7152000000, 722000000, -640000000000⟩, ⟨-2126000000, -7152000000, -722000000, 1550000000000⟩, ⟨-2062220000, 3062560000, -700340000, 0⟩] ⟨0, 9240000000, 0, 0, -10000000000, 0⟩) 40
    ⟨17504225114193, 17849031960665⟩ ⟨16976459532861, 18427814881526⟩ ⟨16888498602639, 17592186044416⟩ = true := by decide +kernel

abbrev test_full_b : Cell → Bool := linTest [⟨10000002126, 7152, 722, 0⟩, ⟨2126, 10000007152, 722, 0⟩, ⟨2126, 7152, 10000000722, 0⟩, ⟨2126000000, 7152000000, 722000000, -70000000000⟩, ⟨-2126000000, -7152000000, -722000000, 1550000000000⟩, ⟨-2062220000, -6937440000, 9299660000, 0⟩] ⟨0, 0, 8400000000, 0, 0, -10000000000⟩

theorem check_full_b : cover 15 20 1 (linTest [⟨10000002126, 7152, 722, 0⟩, ⟨2126, 10000007152, 722, 0⟩, ⟨2126, 7152, 10000000722, 0⟩, ⟨2126000000, 7152000000, 722000000, -70000000000⟩, ⟨-2126000000, -7152000000, -722000000, 1550000000000⟩, ⟨-2062220000, -6937440000, 9299660000, 0⟩] ⟨0, 0, 8400000000, 0, 0, -10000000000⟩) 40
    ⟨17504225114193, 17849031960665⟩ ⟨16976459532861, 18427814881526⟩ ⟨16184811160862, 17592186044416⟩ = true := by decide +kernel

abbrev test_most_b : Cell → Bool := linTest [⟨10000002126, 7152, 722, 0⟩, ⟨2126, 10000007152, 722, 0⟩, ⟨2126, 7152, 10000000722, 0⟩, ⟨2126000000, 7152000000, 722000000, -70000000000⟩, ⟨-2126000000, -7152000000, -722000000, 1550000000000⟩, ⟨-9567000000, -32184000000, 6751000000, 0⟩] ⟨0, 0, 6300000000, 0, 0, -10000000000⟩

theorem check_most_b : cover 10 8 1 (linTest [⟨10000002126, 7152, 722, 0⟩, ⟨2126, 10000007152, 722, 0⟩, ⟨2126, 7152, 10000000722, 0⟩, ⟨2126000000, 7152000000, 722000000, -70000000000⟩, ⟨-2126000000, -7152000000, -722000000, 1550000000000⟩, ⟨-9567000000, -32184000000, 6751000000, 0⟩] ⟨0, 0, 6300000000, 0, 0, -10000000000⟩) 40
    ⟨17504225114193, 17849031960665⟩ ⟨16976459532861, 18427814881526⟩ ⟨16184811160862, 17592186044416⟩ = true := by decide +kernel

abbrev test_start : Cell → Bool := loTest [⟨10000002126, 7152, 722, 0⟩, ⟨2126, 10000007152, 722, 0⟩, ⟨2126, 7152, 10000000722, 0⟩, ⟨2126000000, 7152000000, 722000000, -20000000⟩, ⟨-2126000000, -7152000000, -722000000, 1010000000000⟩, ⟨-10000000000, 0, 0, 1010000000000⟩, ⟨0, -10000000000, 0, 1010000000000⟩, ⟨0, 0, -10000000000, 1010000000000⟩] 1163014225297962322183775 50149068104941939916401504

theorem check_start : cover 10 1 1 (loTest [⟨10000002126, 7152, 722, 0⟩, ⟨2126, 10000007152, 722, 0⟩, ⟨2126, 7152, 10000000722, 0⟩, ⟨2126000000, 7152000000, 722000000, -20000000⟩, ⟨-2126000000, -7152000000, -722000000, 1010000000000⟩, ⟨-10000000000, 0, 0, 1010000000000⟩, ⟨0, -10000000000, 0, 1010000000000⟩, ⟨0, 0, -10000000000, 1010000000000⟩] 1163014225297962322183775 50149068104941939916401504) 40
    ⟨17504225114193, 17849031960665⟩ ⟨16976459532861, 18427814881526⟩ ⟨13721905114644, 17592186044416⟩ = true := by decide +kernel

abbrev test_guess0 : Cell → Bool := hiTest [⟨10000002126, 7152, 722, 0⟩, ⟨2126, 10000007152, 722, 0⟩, ⟨2126, 7152, 10000000722, 0⟩, ⟨2126000000, 7152000000, 722000000, -20000000⟩, ⟨-2126000000, -7152000000, -722000000, 1010000000000⟩] 275626423690205011389522 49979071263908238425159464

theorem check_guess0 : cover 20 1 1 (hiTest [⟨10000002126, 7152, 722, 0⟩, ⟨2126, 10000007152, 722, 0⟩, ⟨2126, 7152, 10000000722, 0⟩, ⟨2126000000, 7152000000, 722000000, -20000000⟩, ⟨-2126000000, -7152000000, -722000000, 1010000000000⟩] 275626423690205011389522 49979071263908238425159464) 40
    ⟨17504225114193, 17849031960665⟩ ⟨16976459532861, 18427814881526⟩ ⟨13721905114644, 17592186044416⟩ = true := by decide +kernel

abbrev test_guess01 : Cell → Bool := hiTest [⟨10000002126, 7152, 722, 0⟩, ⟨2126, 10000007152, 722, 0⟩, ⟨2126, 7152, 10000000722, 0⟩, ⟨2126000000, 7152000000, 722000000, -1000000000⟩, ⟨-2126000000, -7152000000, -722000000, 1010000000000⟩] 429078014184397163120568 49979071263908238425159464

theorem check_guess01 : cover 6 1 1 (hiTest [⟨10000002126, 7152, 722, 0⟩, ⟨2126, 10000007152, 722, 0⟩, ⟨2126, 7152, 10000000722, 0⟩, ⟨2126000000, 7152000000, 722000000, -1000000000⟩, ⟨-2126000000, -7152000000, -722000000, 1010000000000⟩] 429078014184397163120568 49979071263908238425159464) 40
    ⟨17504225114193, 17849031960665⟩ ⟨16976459532861, 18427814881526⟩ ⟨14777436277309, 17592186044416⟩ = true := by decide +kernel

abbrev test_guess1 : Cell → Bool := hiTest [⟨10000002126, 7152, 722, 0⟩, ⟨2126, 10000007152, 722, 0⟩, ⟨2126, 7152, 10000000722, 0⟩, ⟨2126000000, 7152000000, 722000000, -10000000000⟩, ⟨-2126000000, -7152000000, -722000000, 1010000000000⟩] 543820224719101123595506 49979071263908238425159464

theorem check_guess1 : cover 10 1 1 (hiTest [⟨10000002126, 7152, 722, 0⟩, ⟨2126, 10000007152, 722, 0⟩, ⟨2126, 7152, 10000000722, 0⟩, ⟨2126000000, 7152000000, 722000000, -10000000000⟩, ⟨-2126000000, -7152000000, -722000000, 1010000000000⟩] 543820224719101123595506 49979071263908238425159464) 40
    ⟨17504225114193, 17849031960665⟩ ⟨16976459532861, 18427814881526⟩ ⟨15481123719086, 17592186044416⟩ = true := by decide +kernel

abbrev test_guess4 : Cell → Bool := hiTest [⟨10000002126, 7152, 722, 0⟩, ⟨2126, 10000007152, 722, 0⟩, ⟨2126, 7152, 10000000722, 0⟩, ⟨2126000000, 7152000000, 722000000, -40000000000⟩, ⟨-2126000000, -7152000000, -722000000, 1010000000000⟩] 625646328852119958634954 49979071263908238425159464

theorem check_guess4 : cover 35 1 1 (hiTest [⟨10000002126, 7152, 722, 0⟩, ⟨2126, 10000007152, 722, 0⟩, ⟨2126, 7152, 10000000722, 0⟩, ⟨2126000000, 7152000000, 722000000, -40000000000⟩, ⟨-2126000000, -7152000000, -722000000, 1010000000000⟩] 625646328852119958634954 49979071263908238425159464) 40
    ⟨17504225114193, 17849031960665⟩ ⟨16976459532861, 18427814881526⟩ ⟨16008889300418, 17592186044416⟩ = true := by decide +kernel

abbrev test_guess16 : Cell → Bool := hiTest [⟨10000002126, 7152, 722, 0⟩, ⟨2126, 10000007152, 722, 0⟩, ⟨2126, 7152, 10000000722, 0⟩, ⟨2126000000, 7152000000, 722000000, -160000000000⟩, ⟨-2126000000, -7152000000, -722000000, 1010000000000⟩] 734223300970873786407767 49979071263908238425159464

theorem check_guess16 : cover 10 1 1 (hiTest [⟨10000002126, 7152, 722, 0⟩, ⟨2126, 10000007152, 722, 0⟩, ⟨2126, 7152, 10000000722, 0⟩, ⟨2126000000, 7152000000, 722000000, -160000000000⟩, ⟨-2126000000, -7152000000, -722000000, 1010000000000⟩] 734223300970873786407767 49979071263908238425159464) 40
    ⟨17504225114193, 17849031960665⟩ ⟨16976459532861, 18427814881526⟩ ⟨16360733021306, 17592186044416⟩ = true := by decide +kernel

abbrev test_guess64 : Cell → Bool := hiTest [⟨10000002126, 7152, 722, 0⟩, ⟨2126, 10000007152, 722, 0⟩, ⟨2126, 7152, 10000000722, 0⟩, ⟨2126000000, 7152000000, 722000000, -640000000000⟩, ⟨-2126000000, -7152000000, -722000000, 1010000000000⟩] 827633378932968536251710 49979071263908238425159464

theorem check_guess64 : cover 10 1 1 (hiTest [⟨10000002126, 7152, 722, 0⟩, ⟨2126, 10000007152, 722, 0⟩, ⟨2126, 7152, 10000000722, 0⟩, ⟨2126000000, 7152000000, 722000000, -640000000000⟩, ⟨-2126000000, -7152000000, -722000000, 1010000000000⟩] 827633378932968536251710 49979071263908238425159464) 40
    ⟨17504225114193, 17849031960665⟩ ⟨16976459532861, 18427814881526⟩ ⟨16888498602639, 17592186044416⟩ = true := by decide +kernel

abbrev test_guess_r : Cell → Bool := hiTest [⟨10000002126, 7152, 722, 0⟩, ⟨2126, 10000007152, 722, 0⟩, ⟨2126, 7152, 10000000722, 0⟩, ⟨2126000000, 7152000000, 722000000, -160000000000⟩, ⟨-2126000000, -7152000000, -722000000, 1010000000000⟩, ⟨10000000000, 0, 0, -950000000000⟩, ⟨-10000000000, 0, 0, 1001000000000⟩, ⟨0, -10000000000, 0, 1001000000000⟩, ⟨0, 0, -10000000000, 1001000000000⟩] 896960711638250555967384 49979071263908238425159464

theorem check_guess_r_l : cover 10 1 1 test_guess_r 39 ⟨17504225114193, 17676628537429⟩ ⟨16976459532861, 18427814881526⟩ ⟨16360733021306, 17592186044416⟩ = true := by decide +kernel

theorem check_guess_r_r : cover 10 1 1 test_guess_r 39 ⟨17676628537429, 17849031960665⟩ ⟨16976459532861, 18427814881526⟩ ⟨16360733021306, 17592186044416⟩ = true := by decide +kernel

/-- The first guess for full red. -/
theorem check_guess_r : cover 10 1 1 (hiTest [⟨10000002126, 7152, 722, 0⟩, ⟨2126, 10000007152, 722, 0⟩, ⟨2126, 7152, 10000000722, 0⟩, ⟨2126000000, 7152000000, 722000000, -160000000000⟩, ⟨-2126000000, -7152000000, -722000000, 1010000000000⟩, ⟨10000000000, 0, 0, -950000000000⟩, ⟨-10000000000, 0, 0, 1001000000000⟩, ⟨0, -10000000000, 0, 1001000000000⟩, ⟨0, 0, -10000000000, 1001000000000⟩] 896960711638250555967384 49979071263908238425159464) 40
    ⟨17504225114193, 17849031960665⟩ ⟨16976459532861, 18427814881526⟩ ⟨16360733021306, 17592186044416⟩ = true :=
  cover_x (by decide +kernel) rfl check_guess_r_l check_guess_r_r

abbrev test_guess_b : Cell → Bool := hiTest [⟨10000002126, 7152, 722, 0⟩, ⟨2126, 10000007152, 722, 0⟩, ⟨2126, 7152, 10000000722, 0⟩, ⟨2126000000, 7152000000, 722000000, -70000000000⟩, ⟨-2126000000, -7152000000, -722000000, 1010000000000⟩, ⟨0, 0, 10000000000, -950000000000⟩, ⟨-10000000000, 0, 0, 1001000000000⟩, ⟨0, -10000000000, 0, 1001000000000⟩, ⟨0, 0, -10000000000, 1001000000000⟩] 852713178294573643410853 49979071263908238425159464

theorem check_guess_b_ll : cover 6 1 1 test_guess_b 38 ⟨17504225114193, 17676628537429⟩ ⟨16976459532861, 17702137207193⟩ ⟨16184811160862, 17592186044416⟩ = true := by decide +kernel

theorem check_guess_b_lrlll : cover 6 1 1 test_guess_b 35 ⟨17504225114193, 17590426825811⟩ ⟨17702137207193, 18064976044359⟩ ⟨16184811160862, 16888498602639⟩ = true := by decide +kernel

theorem check_guess_b_lrllrl : cover 6 1 1 test_guess_b 34 ⟨17504225114193, 17590426825811⟩ ⟨18064976044359, 18427814881526⟩ ⟨16184811160862, 16536654881750⟩ = true := by decide +kernel

theorem check_guess_b_lrllrr : cover 6 1 1 test_guess_b 34 ⟨17504225114193, 17590426825811⟩ ⟨18064976044359, 18427814881526⟩ ⟨16536654881750, 16888498602639⟩ = true := by decide +kernel

theorem check_guess_b_lrllr : cover 6 1 1 test_guess_b 35 ⟨17504225114193, 17590426825811⟩ ⟨18064976044359, 18427814881526⟩ ⟨16184811160862, 16888498602639⟩ = true :=
  cover_t (by decide +kernel) rfl check_guess_b_lrllrl check_guess_b_lrllrr

theorem check_guess_b_lrll : cover 6 1 1 test_guess_b 36 ⟨17504225114193, 17590426825811⟩ ⟨17702137207193, 18427814881526⟩ ⟨16184811160862, 16888498602639⟩ = true :=
  cover_z (by decide +kernel) rfl check_guess_b_lrlll check_guess_b_lrllr

theorem check_guess_b_lrlr : cover 6 1 1 test_guess_b 36 ⟨17590426825811, 17676628537429⟩ ⟨17702137207193, 18427814881526⟩ ⟨16184811160862, 16888498602639⟩ = true := by decide +kernel

theorem check_guess_b_lrl : cover 6 1 1 test_guess_b 37 ⟨17504225114193, 17676628537429⟩ ⟨17702137207193, 18427814881526⟩ ⟨16184811160862, 16888498602639⟩ = true :=
  cover_x (by decide +kernel) rfl check_guess_b_lrll check_guess_b_lrlr

theorem check_guess_b_lrr : cover 6 1 1 test_guess_b 37 ⟨17504225114193, 17676628537429⟩ ⟨17702137207193, 18427814881526⟩ ⟨16888498602639, 17592186044416⟩ = true := by decide +kernel

theorem check_guess_b_lr : cover 6 1 1 test_guess_b 38 ⟨17504225114193, 17676628537429⟩ ⟨17702137207193, 18427814881526⟩ ⟨16184811160862, 17592186044416⟩ = true :=
  cover_t (by decide +kernel) rfl check_guess_b_lrl check_guess_b_lrr

theorem check_guess_b_l : cover 6 1 1 test_guess_b 39 ⟨17504225114193, 17676628537429⟩ ⟨16976459532861, 18427814881526⟩ ⟨16184811160862, 17592186044416⟩ = true :=
  cover_z (by decide +kernel) rfl check_guess_b_ll check_guess_b_lr

theorem check_guess_b_r : cover 6 1 1 test_guess_b 39 ⟨17676628537429, 17849031960665⟩ ⟨16976459532861, 18427814881526⟩ ⟨16184811160862, 17592186044416⟩ = true := by decide +kernel

/-- The first guess for full blue. -/
theorem check_guess_b : cover 6 1 1 (hiTest [⟨10000002126, 7152, 722, 0⟩, ⟨2126, 10000007152, 722, 0⟩, ⟨2126, 7152, 10000000722, 0⟩, ⟨2126000000, 7152000000, 722000000, -70000000000⟩, ⟨-2126000000, -7152000000, -722000000, 1010000000000⟩, ⟨0, 0, 10000000000, -950000000000⟩, ⟨-10000000000, 0, 0, 1001000000000⟩, ⟨0, -10000000000, 0, 1001000000000⟩, ⟨0, 0, -10000000000, 1001000000000⟩] 852713178294573643410853 49979071263908238425159464) 40
    ⟨17504225114193, 17849031960665⟩ ⟨16976459532861, 18427814881526⟩ ⟨16184811160862, 17592186044416⟩ = true :=
  cover_x (by decide +kernel) rfl check_guess_b_l check_guess_b_r

end Mcu.Lemmas
