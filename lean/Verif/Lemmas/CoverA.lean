import Verif.Lemmas.CoverSplit

/-! Box checks, written by tools/gen_cover.py. -/

set_option maxRecDepth 100000

namespace Mcu.Lemmas

abbrev test_rise0 : Cell → Bool := linTest [⟨10000002126, 7152, 722, 0⟩, ⟨2126, 10000007152, 722, 0⟩, ⟨2126, 7152, 10000000722, 0⟩, ⟨2126000000, 7152000000, 722000000, -20000000⟩, ⟨-2126000000, -7152000000, -722000000, 1650000000000⟩] ⟨-89292000, -300384000, -30324000, 10000000000, 0, 0⟩

theorem check_rise0 : cover 100 4 1 (linTest [⟨10000002126, 7152, 722, 0⟩, ⟨2126, 10000007152, 722, 0⟩, ⟨2126, 7152, 10000000722, 0⟩, ⟨2126000000, 7152000000, 722000000, -20000000⟩, ⟨-2126000000, -7152000000, -722000000, 1650000000000⟩] ⟨-89292000, -300384000, -30324000, 10000000000, 0, 0⟩) 40
    ⟨17504225114193, 17849031960665⟩ ⟨16976459532861, 18427814881526⟩ ⟨13721905114644, 17592186044416⟩ = true := by decide +kernel

abbrev test_rise1 : Cell → Bool := linTest [⟨10000002126, 7152, 722, 0⟩, ⟨2126, 10000007152, 722, 0⟩, ⟨2126, 7152, 10000000722, 0⟩, ⟨2126000000, 7152000000, 722000000, -20000000⟩, ⟨-2126000000, -7152000000, -722000000, 1650000000000⟩] ⟨-89292000, -300384000, -30324000, 0, 10000000000, 0⟩

theorem check_rise1 : cover 60 12 1 (linTest [⟨10000002126, 7152, 722, 0⟩, ⟨2126, 10000007152, 722, 0⟩, ⟨2126, 7152, 10000000722, 0⟩, ⟨2126000000, 7152000000, 722000000, -20000000⟩, ⟨-2126000000, -7152000000, -722000000, 1650000000000⟩] ⟨-89292000, -300384000, -30324000, 0, 10000000000, 0⟩) 40
    ⟨17504225114193, 17849031960665⟩ ⟨16976459532861, 18427814881526⟩ ⟨13721905114644, 17592186044416⟩ = true := by decide +kernel

abbrev test_rise2 : Cell → Bool := linTest [⟨10000002126, 7152, 722, 0⟩, ⟨2126, 10000007152, 722, 0⟩, ⟨2126, 7152, 10000000722, 0⟩, ⟨2126000000, 7152000000, 722000000, -20000000⟩, ⟨-2126000000, -7152000000, -722000000, 1650000000000⟩] ⟨-89292000, -300384000, -30324000, 0, 0, 10000000000⟩

theorem check_rise2 : cover 15 25 1 (linTest [⟨10000002126, 7152, 722, 0⟩, ⟨2126, 10000007152, 722, 0⟩, ⟨2126, 7152, 10000000722, 0⟩, ⟨2126000000, 7152000000, 722000000, -20000000⟩, ⟨-2126000000, -7152000000, -722000000, 1650000000000⟩] ⟨-89292000, -300384000, -30324000, 0, 0, 10000000000⟩) 40
    ⟨17504225114193, 17849031960665⟩ ⟨16976459532861, 18427814881526⟩ ⟨13721905114644, 17592186044416⟩ = true := by decide +kernel

abbrev test_fast0 : Cell → Bool := linTest [⟨10000002126, 7152, 722, 0⟩, ⟨2126, 10000007152, 722, 0⟩, ⟨2126, 7152, 10000000722, 0⟩, ⟨2126000000, 7152000000, 722000000, -20000000⟩, ⟨-2126000000, -7152000000, -722000000, 1650000000000⟩] ⟨-1535822400, -5166604800, -521572800, 2126000000, 7152000000, 722000000⟩

theorem check_fast0 : cover 50 3 2 (linTest [⟨10000002126, 7152, 722, 0⟩, ⟨2126, 10000007152, 722, 0⟩, ⟨2126, 7152, 10000000722, 0⟩, ⟨2126000000, 7152000000, 722000000, -20000000⟩, ⟨-2126000000, -7152000000, -722000000, 1650000000000⟩] ⟨-1535822400, -5166604800, -521572800, 2126000000, 7152000000, 722000000⟩) 40
    ⟨17504225114193, 17849031960665⟩ ⟨16976459532861, 18427814881526⟩ ⟨13721905114644, 17592186044416⟩ = true := by decide +kernel

abbrev test_fast7 : Cell → Bool := linTest [⟨10000002126, 7152, 722, 0⟩, ⟨2126, 10000007152, 722, 0⟩, ⟨2126, 7152, 10000000722, 0⟩, ⟨2126000000, 7152000000, 722000000, -70000000000⟩, ⟨-2126000000, -7152000000, -722000000, 1650000000000⟩] ⟨-1576003800, -5301777600, -535218600, 2126000000, 7152000000, 722000000⟩

theorem check_fast7 : cover 40 3 2 (linTest [⟨10000002126, 7152, 722, 0⟩, ⟨2126, 10000007152, 722, 0⟩, ⟨2126, 7152, 10000000722, 0⟩, ⟨2126000000, 7152000000, 722000000, -70000000000⟩, ⟨-2126000000, -7152000000, -722000000, 1650000000000⟩] ⟨-1576003800, -5301777600, -535218600, 2126000000, 7152000000, 722000000⟩) 40
    ⟨17504225114193, 17849031960665⟩ ⟨16976459532861, 18427814881526⟩ ⟨16184811160862, 17592186044416⟩ = true := by decide +kernel

abbrev test_fast16 : Cell → Bool := linTest [⟨10000002126, 7152, 722, 0⟩, ⟨2126, 10000007152, 722, 0⟩, ⟨2126, 7152, 10000000722, 0⟩, ⟨2126000000, 7152000000, 722000000, -160000000000⟩, ⟨-2126000000, -7152000000, -722000000, 1650000000000⟩] ⟨-1589397600, -5346835200, -539767200, 2126000000, 7152000000, 722000000⟩

theorem check_fast16_llllll : cover 20 1 1 test_fast16 34 ⟨17504225114193, 17525775542097⟩ ⟨16976459532861, 17702137207193⟩ ⟨16360733021306, 16976459532861⟩ = true := by decide +kernel

theorem check_fast16_lllllr : cover 20 1 1 test_fast16 34 ⟨17525775542097, 17547325970002⟩ ⟨16976459532861, 17702137207193⟩ ⟨16360733021306, 16976459532861⟩ = true := by decide +kernel

theorem check_fast16_lllll : cover 20 1 1 test_fast16 35 ⟨17504225114193, 17547325970002⟩ ⟨16976459532861, 17702137207193⟩ ⟨16360733021306, 16976459532861⟩ = true :=
  cover_x (by decide +kernel) rfl check_fast16_llllll check_fast16_lllllr

theorem check_fast16_llllr : cover 20 1 1 test_fast16 35 ⟨17504225114193, 17547325970002⟩ ⟨16976459532861, 17702137207193⟩ ⟨16976459532861, 17592186044416⟩ = true := by decide +kernel

theorem check_fast16_llll : cover 20 1 1 test_fast16 36 ⟨17504225114193, 17547325970002⟩ ⟨16976459532861, 17702137207193⟩ ⟨16360733021306, 17592186044416⟩ = true :=
  cover_t (by decide +kernel) rfl check_fast16_lllll check_fast16_llllr

theorem check_fast16_lllr : cover 20 1 1 test_fast16 36 ⟨17504225114193, 17547325970002⟩ ⟨17702137207193, 18427814881526⟩ ⟨16360733021306, 17592186044416⟩ = true := by decide +kernel

theorem check_fast16_lll : cover 20 1 1 test_fast16 37 ⟨17504225114193, 17547325970002⟩ ⟨16976459532861, 18427814881526⟩ ⟨16360733021306, 17592186044416⟩ = true :=
  cover_z (by decide +kernel) rfl check_fast16_llll check_fast16_lllr

theorem check_fast16_llr : cover 20 1 1 test_fast16 37 ⟨17547325970002, 17590426825811⟩ ⟨16976459532861, 18427814881526⟩ ⟨16360733021306, 17592186044416⟩ = true := by decide +kernel

theorem check_fast16_ll : cover 20 1 1 test_fast16 38 ⟨17504225114193, 17590426825811⟩ ⟨16976459532861, 18427814881526⟩ ⟨16360733021306, 17592186044416⟩ = true :=
  cover_x (by decide +kernel) rfl check_fast16_lll check_fast16_llr

theorem check_fast16_lr : cover 20 1 1 test_fast16 38 ⟨17590426825811, 17676628537429⟩ ⟨16976459532861, 18427814881526⟩ ⟨16360733021306, 17592186044416⟩ = true := by decide +kernel

theorem check_fast16_l : cover 20 1 1 test_fast16 39 ⟨17504225114193, 17676628537429⟩ ⟨16976459532861, 18427814881526⟩ ⟨16360733021306, 17592186044416⟩ = true :=
  cover_x (by decide +kernel) rfl check_fast16_ll check_fast16_lr

theorem check_fast16_r : cover 20 1 1 test_fast16 39 ⟨17676628537429, 17849031960665⟩ ⟨16976459532861, 18427814881526⟩ ⟨16360733021306, 17592186044416⟩ = true := by decide +kernel

/-- The luminance grows at least like the power 1.78. -/
theorem check_fast16 : cover 20 1 1 (linTest [⟨10000002126, 7152, 722, 0⟩, ⟨2126, 10000007152, 722, 0⟩, ⟨2126, 7152, 10000000722, 0⟩, ⟨2126000000, 7152000000, 722000000, -160000000000⟩, ⟨-2126000000, -7152000000, -722000000, 1650000000000⟩] ⟨-1589397600, -5346835200, -539767200, 2126000000, 7152000000, 722000000⟩) 40
    ⟨17504225114193, 17849031960665⟩ ⟨16976459532861, 18427814881526⟩ ⟨16360733021306, 17592186044416⟩ = true :=
  cover_x (by decide +kernel) rfl check_fast16_l check_fast16_r

abbrev test_fast64 : Cell → Bool := linTest [⟨10000002126, 7152, 722, 0⟩, ⟨2126, 10000007152, 722, 0⟩, ⟨2126, 7152, 10000000722, 0⟩, ⟨2126000000, 7152000000, 722000000, -640000000000⟩, ⟨-2126000000, -7152000000, -722000000, 1650000000000⟩] ⟨-1602791400, -5391892800, -544315800, 2126000000, 7152000000, 722000000⟩

theorem check_fast64_ll : cover 10 1 1 test_fast64 38 ⟨17504225114193, 17590426825811⟩ ⟨16976459532861, 18427814881526⟩ ⟨16888498602639, 17592186044416⟩ = true := by decide +kernel

theorem check_fast64_lr : cover 10 1 1 test_fast64 38 ⟨17590426825811, 17676628537429⟩ ⟨16976459532861, 18427814881526⟩ ⟨16888498602639, 17592186044416⟩ = true := by decide +kernel

theorem check_fast64_l : cover 10 1 1 test_fast64 39 ⟨17504225114193, 17676628537429⟩ ⟨16976459532861, 18427814881526⟩ ⟨16888498602639, 17592186044416⟩ = true :=
  cover_x (by decide +kernel) rfl check_fast64_ll check_fast64_lr

theorem check_fast64_r : cover 10 1 1 test_fast64 39 ⟨17676628537429, 17849031960665⟩ ⟨16976459532861, 18427814881526⟩ ⟨16888498602639, 17592186044416⟩ = true := by decide +kernel

/-- The luminance grows at least like the power 1.795. -/
theorem check_fast64 : cover 10 1 1 (linTest [⟨10000002126, 7152, 722, 0⟩, ⟨2126, 10000007152, 722, 0⟩, ⟨2126, 7152, 10000000722, 0⟩, ⟨2126000000, 7152000000, 722000000, -640000000000⟩, ⟨-2126000000, -7152000000, -722000000, 1650000000000⟩] ⟨-1602791400, -5391892800, -544315800, 2126000000, 7152000000, 722000000⟩) 40
    ⟨17504225114193, 17849031960665⟩ ⟨16976459532861, 18427814881526⟩ ⟨16888498602639, 17592186044416⟩ = true :=
  cover_x (by decide +kernel) rfl check_fast64_l check_fast64_r

abbrev test_slow : Cell → Bool := linTest [⟨10000002126, 7152, 722, 0⟩, ⟨2126, 10000007152, 722, 0⟩, ⟨2126, 7152, 10000000722, 0⟩, ⟨2126000000, 7152000000, 722000000, -20000000⟩, ⟨-2126000000, -7152000000, -722000000, 1650000000000⟩] ⟨1964424000, 6608448000, 667128000, -2126000000, -7152000000, -722000000⟩

theorem check_slow : cover 20 4 1 (linTest [⟨10000002126, 7152, 722, 0⟩, ⟨2126, 10000007152, 722, 0⟩, ⟨2126, 7152, 10000000722, 0⟩, ⟨2126000000, 7152000000, 722000000, -20000000⟩, ⟨-2126000000, -7152000000, -722000000, 1650000000000⟩] ⟨1964424000, 6608448000, 667128000, -2126000000, -7152000000, -722000000⟩) 40
    ⟨17504225114193, 17849031960665⟩ ⟨16976459532861, 18427814881526⟩ ⟨13721905114644, 17592186044416⟩ = true := by decide +kernel

abbrev test_steep0 : Cell → Bool := linTest [⟨10000002126, 7152, 722, 0⟩, ⟨2126, 10000007152, 722, 0⟩, ⟨2126, 7152, 10000000722, 0⟩, ⟨2126000000, 7152000000, 722000000, -20000000⟩, ⟨-2126000000, -7152000000, -722000000, 1650000000000⟩] ⟨10757964000, 5106528000, 515508000, -10000000000, 0, 0⟩

theorem check_steep0 : cover 25 4 1 (linTest [⟨10000002126, 7152, 722, 0⟩, ⟨2126, 10000007152, 722, 0⟩, ⟨2126, 7152, 10000000722, 0⟩, ⟨2126000000, 7152000000, 722000000, -20000000⟩, ⟨-2126000000, -7152000000, -722000000, 1650000000000⟩] ⟨10757964000, 5106528000, 515508000, -10000000000, 0, 0⟩) 40
    ⟨17504225114193, 17849031960665⟩ ⟨16976459532861, 18427814881526⟩ ⟨13721905114644, 17592186044416⟩ = true := by decide +kernel

abbrev test_steep1 : Cell → Bool := linTest [⟨10000002126, 7152, 722, 0⟩, ⟨2126, 10000007152, 722, 0⟩, ⟨2126, 7152, 10000000722, 0⟩, ⟨2126000000, 7152000000, 722000000, -20000000⟩, ⟨-2126000000, -7152000000, -722000000, 1650000000000⟩] ⟨2143008000, 16449216000, 727776000, 0, -10000000000, 0⟩

theorem check_steep1 : cover 25 25 1 (linTest [⟨10000002126, 7152, 722, 0⟩, ⟨2126, 10000007152, 722, 0⟩, ⟨2126, 7152, 10000000722, 0⟩, ⟨2126000000, 7152000000, 722000000, -20000000⟩, ⟨-2126000000, -7152000000, -722000000, 1650000000000⟩] ⟨2143008000, 16449216000, 727776000, 0, -10000000000, 0⟩) 40
    ⟨17504225114193, 17849031960665⟩ ⟨16976459532861, 18427814881526⟩ ⟨13721905114644, 17592186044416⟩ = true := by decide +kernel

abbrev test_steep2 : Cell → Bool := linTest [⟨10000002126, 7152, 722, 0⟩, ⟨2126, 10000007152, 722, 0⟩, ⟨2126, 7152, 10000000722, 0⟩, ⟨2126000000, 7152000000, 722000000, -20000000⟩, ⟨-2126000000, -7152000000, -722000000, 1650000000000⟩] ⟨714336000, 2403072000, 9482592000, 0, 0, -10000000000⟩

theorem check_steep2 : cover 15 15 1 (linTest [⟨10000002126, 7152, 722, 0⟩, ⟨2126, 10000007152, 722, 0⟩, ⟨2126, 7152, 10000000722, 0⟩, ⟨2126000000, 7152000000, 722000000, -20000000⟩, ⟨-2126000000, -7152000000, -722000000, 1650000000000⟩] ⟨714336000, 2403072000, 9482592000, 0, 0, -10000000000⟩) 40
    ⟨17504225114193, 17849031960665⟩ ⟨16976459532861, 18427814881526⟩ ⟨13721905114644, 17592186044416⟩ = true := by decide +kernel

abbrev test_blue : Cell → Bool := linTest [⟨10000002126, 7152, 722, 0⟩, ⟨2126, 10000007152, 722, 0⟩, ⟨2126, 7152, 10000000722, 0⟩, ⟨2126000000, 7152000000, 722000000, -20000000⟩, ⟨-2126000000, -7152000000, -722000000, 1650000000000⟩] ⟨0, 0, 0, 10417400000, 35044800000, -6462200000⟩

theorem check_blue : cover 15 25 1 (linTest [⟨10000002126, 7152, 722, 0⟩, ⟨2126, 10000007152, 722, 0⟩, ⟨2126, 7152, 10000000722, 0⟩, ⟨2126000000, 7152000000, 722000000, -20000000⟩, ⟨-2126000000, -7152000000, -722000000, 1650000000000⟩] ⟨0, 0, 0, 10417400000, 35044800000, -6462200000⟩) 40
    ⟨17504225114193, 17849031960665⟩ ⟨16976459532861, 18427814881526⟩ ⟨13721905114644, 17592186044416⟩ = true := by decide +kernel

end Mcu.Lemmas
