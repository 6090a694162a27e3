import Verif.Lemmas.CoverB

/-! Box checks, written by tools/gen_cover.py. -/

set_option maxRecDepth 100000

namespace Mcu.Lemmas

abbrev test_power01 : Cell → Bool := linTest [⟨10000002126, 7152, 722, 0⟩, ⟨2126, 10000007152, 722, 0⟩, ⟨2126, 7152, 10000000722, 0⟩, ⟨2126000000, 7152000000, 722000000, -1000000000⟩, ⟨-2126000000, -7152000000, -722000000, 1550000000000⟩, ⟨0, 0, -10000000000, 3600000000000⟩] ⟨1785393540, 6006178080, 606328380, -2126000000, -7152000000, -722000000⟩

theorem check_power01_l : cover 20 10 1 test_power01 39 ⟨17504225114193, 17849031960665⟩ ⟨16976459532861, 17702137207193⟩ ⟨14777436277309, 17592186044416⟩ = true := by decide +kernel

theorem check_power01_rl : cover 20 10 1 test_power01 38 ⟨17504225114193, 17849031960665⟩ ⟨17702137207193, 18064976044359⟩ ⟨14777436277309, 17592186044416⟩ = true := by decide +kernel

theorem check_power01_rrll : cover 20 10 1 test_power01 36 ⟨17504225114193, 17676628537429⟩ ⟨18064976044359, 18246395462942⟩ ⟨14777436277309, 17592186044416⟩ = true := by decide +kernel

theorem check_power01_rrlrlll : cover 20 10 1 test_power01 33 ⟨17504225114193, 17590426825811⟩ ⟨18246395462942, 18337105172234⟩ ⟨14777436277309, 16184811160862⟩ = true := by decide +kernel

theorem check_power01_rrlrllrl : cover 20 10 1 test_power01 32 ⟨17504225114193, 17547325970002⟩ ⟨18337105172234, 18427814881526⟩ ⟨14777436277309, 16184811160862⟩ = true := by decide +kernel

theorem check_power01_rrlrllrrl : cover 20 10 1 test_power01 31 ⟨17547325970002, 17590426825811⟩ ⟨18337105172234, 18427814881526⟩ ⟨14777436277309, 15481123719085⟩ = true := by decide +kernel

theorem check_power01_rrlrllrrr : cover 20 10 1 test_power01 31 ⟨17547325970002, 17590426825811⟩ ⟨18337105172234, 18427814881526⟩ ⟨15481123719085, 16184811160862⟩ = true := by decide +kernel

theorem check_power01_rrlrllrr : cover 20 10 1 test_power01 32 ⟨17547325970002, 17590426825811⟩ ⟨18337105172234, 18427814881526⟩ ⟨14777436277309, 16184811160862⟩ = true :=
  cover_t (by decide +kernel) rfl check_power01_rrlrllrrl check_power01_rrlrllrrr

theorem check_power01_rrlrllr : cover 20 10 1 test_power01 33 ⟨17504225114193, 17590426825811⟩ ⟨18337105172234, 18427814881526⟩ ⟨14777436277309, 16184811160862⟩ = true :=
  cover_x (by decide +kernel) rfl check_power01_rrlrllrl check_power01_rrlrllrr

theorem check_power01_rrlrll : cover 20 10 1 test_power01 34 ⟨17504225114193, 17590426825811⟩ ⟨18246395462942, 18427814881526⟩ ⟨14777436277309, 16184811160862⟩ = true :=
  cover_z (by decide +kernel) rfl check_power01_rrlrlll check_power01_rrlrllr

theorem check_power01_rrlrlrl : cover 20 10 1 test_power01 33 ⟨17504225114193, 17590426825811⟩ ⟨18246395462942, 18337105172234⟩ ⟨16184811160862, 17592186044416⟩ = true := by decide +kernel

theorem check_power01_rrlrlrrll : cover 20 10 1 test_power01 31 ⟨17504225114193, 17547325970002⟩ ⟨18337105172234, 18427814881526⟩ ⟨16184811160862, 16888498602639⟩ = true := by decide +kernel

theorem check_power01_rrlrlrrlr : cover 20 10 1 test_power01 31 ⟨17504225114193, 17547325970002⟩ ⟨18337105172234, 18427814881526⟩ ⟨16888498602639, 17592186044416⟩ = true := by decide +kernel

theorem check_power01_rrlrlrrl : cover 20 10 1 test_power01 32 ⟨17504225114193, 17547325970002⟩ ⟨18337105172234, 18427814881526⟩ ⟨16184811160862, 17592186044416⟩ = true :=
  cover_t (by decide +kernel) rfl check_power01_rrlrlrrll check_power01_rrlrlrrlr

theorem check_power01_rrlrlrrrll : cover 20 10 1 test_power01 30 ⟨17547325970002, 17590426825811⟩ ⟨18337105172234, 18382460026880⟩ ⟨16184811160862, 16888498602639⟩ = true := by decide +kernel

theorem check_power01_rrlrlrrrlrll : cover 20 10 1 test_power01 28 ⟨17547325970002, 17568876397906⟩ ⟨18382460026880, 18427814881526⟩ ⟨16184811160862, 16536654881750⟩ = true := by decide +kernel

theorem check_power01_rrlrlrrrlrlrl : cover 20 10 1 test_power01 27 ⟨17547325970002, 17568876397906⟩ ⟨18382460026880, 18405137454203⟩ ⟨16536654881750, 16888498602639⟩ = true := by decide +kernel

theorem check_power01_rrlrlrrrlrlrr : cover 20 10 1 test_power01 27 ⟨17547325970002, 17568876397906⟩ ⟨18405137454203, 18427814881526⟩ ⟨16536654881750, 16888498602639⟩ = true := by decide +kernel

theorem check_power01_rrlrlrrrlrlr : cover 20 10 1 test_power01 28 ⟨17547325970002, 17568876397906⟩ ⟨18382460026880, 18427814881526⟩ ⟨16536654881750, 16888498602639⟩ = true :=
  cover_z (by decide +kernel) rfl check_power01_rrlrlrrrlrlrl check_power01_rrlrlrrrlrlrr

theorem check_power01_rrlrlrrrlrl : cover 20 10 1 test_power01 29 ⟨17547325970002, 17568876397906⟩ ⟨18382460026880, 18427814881526⟩ ⟨16184811160862, 16888498602639⟩ = true :=
  cover_t (by decide +kernel) rfl check_power01_rrlrlrrrlrll check_power01_rrlrlrrrlrlr

theorem check_power01_rrlrlrrrlrr : cover 20 10 1 test_power01 29 ⟨17568876397906, 17590426825811⟩ ⟨18382460026880, 18427814881526⟩ ⟨16184811160862, 16888498602639⟩ = true := by decide +kernel

theorem check_power01_rrlrlrrrlr : cover 20 10 1 test_power01 30 ⟨17547325970002, 17590426825811⟩ ⟨18382460026880, 18427814881526⟩ ⟨16184811160862, 16888498602639⟩ = true :=
  cover_x (by decide +kernel) rfl check_power01_rrlrlrrrlrl check_power01_rrlrlrrrlrr

theorem check_power01_rrlrlrrrl : cover 20 10 1 test_power01 31 ⟨17547325970002, 17590426825811⟩ ⟨18337105172234, 18427814881526⟩ ⟨16184811160862, 16888498602639⟩ = true :=
  cover_z (by decide +kernel) rfl check_power01_rrlrlrrrll check_power01_rrlrlrrrlr

theorem check_power01_rrlrlrrrr : cover 20 10 1 test_power01 31 ⟨17547325970002, 17590426825811⟩ ⟨18337105172234, 18427814881526⟩ ⟨16888498602639, 17592186044416⟩ = true := by decide +kernel

theorem check_power01_rrlrlrrr : cover 20 10 1 test_power01 32 ⟨17547325970002, 17590426825811⟩ ⟨18337105172234, 18427814881526⟩ ⟨16184811160862, 17592186044416⟩ = true :=
  cover_t (by decide +kernel) rfl check_power01_rrlrlrrrl check_power01_rrlrlrrrr

theorem check_power01_rrlrlrr : cover 20 10 1 test_power01 33 ⟨17504225114193, 17590426825811⟩ ⟨18337105172234, 18427814881526⟩ ⟨16184811160862, 17592186044416⟩ = true :=
  cover_x (by decide +kernel) rfl check_power01_rrlrlrrl check_power01_rrlrlrrr

theorem check_power01_rrlrlr : cover 20 10 1 test_power01 34 ⟨17504225114193, 17590426825811⟩ ⟨18246395462942, 18427814881526⟩ ⟨16184811160862, 17592186044416⟩ = true :=
  cover_z (by decide +kernel) rfl check_power01_rrlrlrl check_power01_rrlrlrr

theorem check_power01_rrlrl : cover 20 10 1 test_power01 35 ⟨17504225114193, 17590426825811⟩ ⟨18246395462942, 18427814881526⟩ ⟨14777436277309, 17592186044416⟩ = true :=
  cover_t (by decide +kernel) rfl check_power01_rrlrll check_power01_rrlrlr

theorem check_power01_rrlrrl : cover 20 10 1 test_power01 34 ⟨17590426825811, 17676628537429⟩ ⟨18246395462942, 18427814881526⟩ ⟨14777436277309, 16184811160862⟩ = true := by decide +kernel

theorem check_power01_rrlrrrl : cover 20 10 1 test_power01 33 ⟨17590426825811, 17676628537429⟩ ⟨18246395462942, 18337105172234⟩ ⟨16184811160862, 17592186044416⟩ = true := by decide +kernel

theorem check_power01_rrlrrrrll : cover 20 10 1 test_power01 31 ⟨17590426825811, 17633527681620⟩ ⟨18337105172234, 18427814881526⟩ ⟨16184811160862, 16888498602639⟩ = true := by decide +kernel

theorem check_power01_rrlrrrrlr : cover 20 10 1 test_power01 31 ⟨17590426825811, 17633527681620⟩ ⟨18337105172234, 18427814881526⟩ ⟨16888498602639, 17592186044416⟩ = true := by decide +kernel

theorem check_power01_rrlrrrrl : cover 20 10 1 test_power01 32 ⟨17590426825811, 17633527681620⟩ ⟨18337105172234, 18427814881526⟩ ⟨16184811160862, 17592186044416⟩ = true :=
  cover_t (by decide +kernel) rfl check_power01_rrlrrrrll check_power01_rrlrrrrlr

theorem check_power01_rrlrrrrr : cover 20 10 1 test_power01 32 ⟨17633527681620, 17676628537429⟩ ⟨18337105172234, 18427814881526⟩ ⟨16184811160862, 17592186044416⟩ = true := by decide +kernel

theorem check_power01_rrlrrrr : cover 20 10 1 test_power01 33 ⟨17590426825811, 17676628537429⟩ ⟨18337105172234, 18427814881526⟩ ⟨16184811160862, 17592186044416⟩ = true :=
  cover_x (by decide +kernel) rfl check_power01_rrlrrrrl check_power01_rrlrrrrr

theorem check_power01_rrlrrr : cover 20 10 1 test_power01 34 ⟨17590426825811, 17676628537429⟩ ⟨18246395462942, 18427814881526⟩ ⟨16184811160862, 17592186044416⟩ = true :=
  cover_z (by decide +kernel) rfl check_power01_rrlrrrl check_power01_rrlrrrr

theorem check_power01_rrlrr : cover 20 10 1 test_power01 35 ⟨17590426825811, 17676628537429⟩ ⟨18246395462942, 18427814881526⟩ ⟨14777436277309, 17592186044416⟩ = true :=
  cover_t (by decide +kernel) rfl check_power01_rrlrrl check_power01_rrlrrr

theorem check_power01_rrlr : cover 20 10 1 test_power01 36 ⟨17504225114193, 17676628537429⟩ ⟨18246395462942, 18427814881526⟩ ⟨14777436277309, 17592186044416⟩ = true :=
  cover_x (by decide +kernel) rfl check_power01_rrlrl check_power01_rrlrr

theorem check_power01_rrl : cover 20 10 1 test_power01 37 ⟨17504225114193, 17676628537429⟩ ⟨18064976044359, 18427814881526⟩ ⟨14777436277309, 17592186044416⟩ = true :=
  cover_z (by decide +kernel) rfl check_power01_rrll check_power01_rrlr

theorem check_power01_rrr : cover 20 10 1 test_power01 37 ⟨17676628537429, 17849031960665⟩ ⟨18064976044359, 18427814881526⟩ ⟨14777436277309, 17592186044416⟩ = true := by decide +kernel

theorem check_power01_rr : cover 20 10 1 test_power01 38 ⟨17504225114193, 17849031960665⟩ ⟨18064976044359, 18427814881526⟩ ⟨14777436277309, 17592186044416⟩ = true :=
  cover_x (by decide +kernel) rfl check_power01_rrl check_power01_rrr

theorem check_power01_r : cover 20 10 1 test_power01 39 ⟨17504225114193, 17849031960665⟩ ⟨17702137207193, 18427814881526⟩ ⟨14777436277309, 17592186044416⟩ = true :=
  cover_z (by decide +kernel) rfl check_power01_rl check_power01_rr

/-- The luminance grows at most like the power 1.9995. -/
theorem check_power01 : cover 20 10 1 (linTest [⟨10000002126, 7152, 722, 0⟩, ⟨2126, 10000007152, 722, 0⟩, ⟨2126, 7152, 10000000722, 0⟩, ⟨2126000000, 7152000000, 722000000, -1000000000⟩, ⟨-2126000000, -7152000000, -722000000, 1550000000000⟩, ⟨0, 0, -10000000000, 3600000000000⟩] ⟨1785393540, 6006178080, 606328380, -2126000000, -7152000000, -722000000⟩) 40
    ⟨17504225114193, 17849031960665⟩ ⟨16976459532861, 18427814881526⟩ ⟨14777436277309, 17592186044416⟩ = true :=
  cover_z (by decide +kernel) rfl check_power01_l check_power01_r

end Mcu.Lemmas
