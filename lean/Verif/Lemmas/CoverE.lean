import Verif.Lemmas.CoverC

/-! Box checks, written by tools/gen_cover.py. -/

set_option maxRecDepth 100000

namespace Mcu.Lemmas

abbrev test_power8 : Cell → Bool := linTest [⟨10000002126, 7152, 722, 0⟩, ⟨2126, 10000007152, 722, 0⟩, ⟨2126, 7152, 10000000722, 0⟩, ⟨2126000000, 7152000000, 722000000, -80000000000⟩, ⟨-2126000000, -7152000000, -722000000, 1550000000000⟩, ⟨0, 0, -10000000000, 3600000000000⟩] ⟨1784054160, 6001672320, 605873520, -2126000000, -7152000000, -722000000⟩

theorem check_power8_l : cover 20 10 1 test_power8 39 ⟨17504225114193, 17849031960665⟩ ⟨16976459532861, 17702137207193⟩ ⟨16184811160862, 17592186044416⟩ = true := by decide +kernel

theorem check_power8_rl : cover 20 10 1 test_power8 38 ⟨17504225114193, 17849031960665⟩ ⟨17702137207193, 18064976044359⟩ ⟨16184811160862, 17592186044416⟩ = true := by decide +kernel

theorem check_power8_rrll : cover 20 10 1 test_power8 36 ⟨17504225114193, 17676628537429⟩ ⟨18064976044359, 18246395462942⟩ ⟨16184811160862, 17592186044416⟩ = true := by decide +kernel

theorem check_power8_rrlrll : cover 20 10 1 test_power8 34 ⟨17504225114193, 17590426825811⟩ ⟨18246395462942, 18337105172234⟩ ⟨16184811160862, 17592186044416⟩ = true := by decide +kernel

theorem check_power8_rrlrlrlll : cover 20 10 1 test_power8 31 ⟨17504225114193, 17547325970002⟩ ⟨18337105172234, 18382460026880⟩ ⟨16184811160862, 16888498602639⟩ = true := by decide +kernel

theorem check_power8_rrlrlrllrl : cover 20 10 1 test_power8 30 ⟨17504225114193, 17525775542097⟩ ⟨18382460026880, 18427814881526⟩ ⟨16184811160862, 16888498602639⟩ = true := by decide +kernel

theorem check_power8_rrlrlrllrrl : cover 20 10 1 test_power8 29 ⟨17525775542097, 17547325970002⟩ ⟨18382460026880, 18427814881526⟩ ⟨16184811160862, 16536654881750⟩ = true := by decide +kernel

theorem check_power8_rrlrlrllrrrl : cover 20 10 1 test_power8 28 ⟨17525775542097, 17547325970002⟩ ⟨18382460026880, 18405137454203⟩ ⟨16536654881750, 16888498602639⟩ = true := by decide +kernel

theorem check_power8_rrlrlrllrrrrl : cover 20 10 1 test_power8 27 ⟨17525775542097, 17536550756049⟩ ⟨18405137454203, 18427814881526⟩ ⟨16536654881750, 16888498602639⟩ = true := by decide +kernel

theorem check_power8_rrlrlrllrrrrrl : cover 20 10 1 test_power8 26 ⟨17536550756049, 17547325970002⟩ ⟨18405137454203, 18427814881526⟩ ⟨16536654881750, 16712576742194⟩ = true := by decide +kernel

theorem check_power8_rrlrlrllrrrrrrl : cover 20 10 1 test_power8 25 ⟨17536550756049, 17547325970002⟩ ⟨18405137454203, 18416476167864⟩ ⟨16712576742194, 16888498602639⟩ = true := by decide +kernel

theorem check_power8_rrlrlrllrrrrrrr : cover 20 10 1 test_power8 25 ⟨17536550756049, 17547325970002⟩ ⟨18416476167864, 18427814881526⟩ ⟨16712576742194, 16888498602639⟩ = true := by decide +kernel

theorem check_power8_rrlrlrllrrrrrr : cover 20 10 1 test_power8 26 ⟨17536550756049, 17547325970002⟩ ⟨18405137454203, 18427814881526⟩ ⟨16712576742194, 16888498602639⟩ = true :=
  cover_z (by decide +kernel) rfl check_power8_rrlrlrllrrrrrrl check_power8_rrlrlrllrrrrrrr

theorem check_power8_rrlrlrllrrrrr : cover 20 10 1 test_power8 27 ⟨17536550756049, 17547325970002⟩ ⟨18405137454203, 18427814881526⟩ ⟨16536654881750, 16888498602639⟩ = true :=
  cover_t (by decide +kernel) rfl check_power8_rrlrlrllrrrrrl check_power8_rrlrlrllrrrrrr

theorem check_power8_rrlrlrllrrrr : cover 20 10 1 test_power8 28 ⟨17525775542097, 17547325970002⟩ ⟨18405137454203, 18427814881526⟩ ⟨16536654881750, 16888498602639⟩ = true :=
  cover_x (by decide +kernel) rfl check_power8_rrlrlrllrrrrl check_power8_rrlrlrllrrrrr

theorem check_power8_rrlrlrllrrr : cover 20 10 1 test_power8 29 ⟨17525775542097, 17547325970002⟩ ⟨18382460026880, 18427814881526⟩ ⟨16536654881750, 16888498602639⟩ = true :=
  cover_z (by decide +kernel) rfl check_power8_rrlrlrllrrrl check_power8_rrlrlrllrrrr

theorem check_power8_rrlrlrllrr : cover 20 10 1 test_power8 30 ⟨17525775542097, 17547325970002⟩ ⟨18382460026880, 18427814881526⟩ ⟨16184811160862, 16888498602639⟩ = true :=
  cover_t (by decide +kernel) rfl check_power8_rrlrlrllrrl check_power8_rrlrlrllrrr

theorem check_power8_rrlrlrllr : cover 20 10 1 test_power8 31 ⟨17504225114193, 17547325970002⟩ ⟨18382460026880, 18427814881526⟩ ⟨16184811160862, 16888498602639⟩ = true :=
  cover_x (by decide +kernel) rfl check_power8_rrlrlrllrl check_power8_rrlrlrllrr

theorem check_power8_rrlrlrll : cover 20 10 1 test_power8 32 ⟨17504225114193, 17547325970002⟩ ⟨18337105172234, 18427814881526⟩ ⟨16184811160862, 16888498602639⟩ = true :=
  cover_z (by decide +kernel) rfl check_power8_rrlrlrlll check_power8_rrlrlrllr

theorem check_power8_rrlrlrlr : cover 20 10 1 test_power8 32 ⟨17504225114193, 17547325970002⟩ ⟨18337105172234, 18427814881526⟩ ⟨16888498602639, 17592186044416⟩ = true := by decide +kernel

theorem check_power8_rrlrlrl : cover 20 10 1 test_power8 33 ⟨17504225114193, 17547325970002⟩ ⟨18337105172234, 18427814881526⟩ ⟨16184811160862, 17592186044416⟩ = true :=
  cover_t (by decide +kernel) rfl check_power8_rrlrlrll check_power8_rrlrlrlr

theorem check_power8_rrlrlrrll : cover 20 10 1 test_power8 31 ⟨17547325970002, 17590426825811⟩ ⟨18337105172234, 18382460026880⟩ ⟨16184811160862, 16888498602639⟩ = true := by decide +kernel

theorem check_power8_rrlrlrrlrll : cover 20 10 1 test_power8 29 ⟨17547325970002, 17568876397906⟩ ⟨18382460026880, 18427814881526⟩ ⟨16184811160862, 16536654881750⟩ = true := by decide +kernel

theorem check_power8_rrlrlrrlrlrl : cover 20 10 1 test_power8 28 ⟨17547325970002, 17568876397906⟩ ⟨18382460026880, 18405137454203⟩ ⟨16536654881750, 16888498602639⟩ = true := by decide +kernel

theorem check_power8_rrlrlrrlrlrrll : cover 20 10 1 test_power8 26 ⟨17547325970002, 17558101183954⟩ ⟨18405137454203, 18427814881526⟩ ⟨16536654881750, 16712576742194⟩ = true := by decide +kernel

theorem check_power8_rrlrlrrlrlrrlr : cover 20 10 1 test_power8 26 ⟨17547325970002, 17558101183954⟩ ⟨18405137454203, 18427814881526⟩ ⟨16712576742194, 16888498602639⟩ = true := by decide +kernel

theorem check_power8_rrlrlrrlrlrrl : cover 20 10 1 test_power8 27 ⟨17547325970002, 17558101183954⟩ ⟨18405137454203, 18427814881526⟩ ⟨16536654881750, 16888498602639⟩ = true :=
  cover_t (by decide +kernel) rfl check_power8_rrlrlrrlrlrrll check_power8_rrlrlrrlrlrrlr

theorem check_power8_rrlrlrrlrlrrr : cover 20 10 1 test_power8 27 ⟨17558101183954, 17568876397906⟩ ⟨18405137454203, 18427814881526⟩ ⟨16536654881750, 16888498602639⟩ = true := by decide +kernel

theorem check_power8_rrlrlrrlrlrr : cover 20 10 1 test_power8 28 ⟨17547325970002, 17568876397906⟩ ⟨18405137454203, 18427814881526⟩ ⟨16536654881750, 16888498602639⟩ = true :=
  cover_x (by decide +kernel) rfl check_power8_rrlrlrrlrlrrl check_power8_rrlrlrrlrlrrr

theorem check_power8_rrlrlrrlrlr : cover 20 10 1 test_power8 29 ⟨17547325970002, 17568876397906⟩ ⟨18382460026880, 18427814881526⟩ ⟨16536654881750, 16888498602639⟩ = true :=
  cover_z (by decide +kernel) rfl check_power8_rrlrlrrlrlrl check_power8_rrlrlrrlrlrr

theorem check_power8_rrlrlrrlrl : cover 20 10 1 test_power8 30 ⟨17547325970002, 17568876397906⟩ ⟨18382460026880, 18427814881526⟩ ⟨16184811160862, 16888498602639⟩ = true :=
  cover_t (by decide +kernel) rfl check_power8_rrlrlrrlrll check_power8_rrlrlrrlrlr

theorem check_power8_rrlrlrrlrrl : cover 20 10 1 test_power8 29 ⟨17568876397906, 17590426825811⟩ ⟨18382460026880, 18427814881526⟩ ⟨16184811160862, 16536654881750⟩ = true := by decide +kernel

theorem check_power8_rrlrlrrlrrr : cover 20 10 1 test_power8 29 ⟨17568876397906, 17590426825811⟩ ⟨18382460026880, 18427814881526⟩ ⟨16536654881750, 16888498602639⟩ = true := by decide +kernel

theorem check_power8_rrlrlrrlrr : cover 20 10 1 test_power8 30 ⟨17568876397906, 17590426825811⟩ ⟨18382460026880, 18427814881526⟩ ⟨16184811160862, 16888498602639⟩ = true :=
  cover_t (by decide +kernel) rfl check_power8_rrlrlrrlrrl check_power8_rrlrlrrlrrr

theorem check_power8_rrlrlrrlr : cover 20 10 1 test_power8 31 ⟨17547325970002, 17590426825811⟩ ⟨18382460026880, 18427814881526⟩ ⟨16184811160862, 16888498602639⟩ = true :=
  cover_x (by decide +kernel) rfl check_power8_rrlrlrrlrl check_power8_rrlrlrrlrr

theorem check_power8_rrlrlrrl : cover 20 10 1 test_power8 32 ⟨17547325970002, 17590426825811⟩ ⟨18337105172234, 18427814881526⟩ ⟨16184811160862, 16888498602639⟩ = true :=
  cover_z (by decide +kernel) rfl check_power8_rrlrlrrll check_power8_rrlrlrrlr

theorem check_power8_rrlrlrrr : cover 20 10 1 test_power8 32 ⟨17547325970002, 17590426825811⟩ ⟨18337105172234, 18427814881526⟩ ⟨16888498602639, 17592186044416⟩ = true := by decide +kernel

theorem check_power8_rrlrlrr : cover 20 10 1 test_power8 33 ⟨17547325970002, 17590426825811⟩ ⟨18337105172234, 18427814881526⟩ ⟨16184811160862, 17592186044416⟩ = true :=
  cover_t (by decide +kernel) rfl check_power8_rrlrlrrl check_power8_rrlrlrrr

theorem check_power8_rrlrlr : cover 20 10 1 test_power8 34 ⟨17504225114193, 17590426825811⟩ ⟨18337105172234, 18427814881526⟩ ⟨16184811160862, 17592186044416⟩ = true :=
  cover_x (by decide +kernel) rfl check_power8_rrlrlrl check_power8_rrlrlrr

theorem check_power8_rrlrl : cover 20 10 1 test_power8 35 ⟨17504225114193, 17590426825811⟩ ⟨18246395462942, 18427814881526⟩ ⟨16184811160862, 17592186044416⟩ = true :=
  cover_z (by decide +kernel) rfl check_power8_rrlrll check_power8_rrlrlr

theorem check_power8_rrlrrll : cover 20 10 1 test_power8 33 ⟨17590426825811, 17633527681620⟩ ⟨18246395462942, 18337105172234⟩ ⟨16184811160862, 17592186044416⟩ = true := by decide +kernel

theorem check_power8_rrlrrlr : cover 20 10 1 test_power8 33 ⟨17633527681620, 17676628537429⟩ ⟨18246395462942, 18337105172234⟩ ⟨16184811160862, 17592186044416⟩ = true := by decide +kernel

theorem check_power8_rrlrrl : cover 20 10 1 test_power8 34 ⟨17590426825811, 17676628537429⟩ ⟨18246395462942, 18337105172234⟩ ⟨16184811160862, 17592186044416⟩ = true :=
  cover_x (by decide +kernel) rfl check_power8_rrlrrll check_power8_rrlrrlr

theorem check_power8_rrlrrrll : cover 20 10 1 test_power8 32 ⟨17590426825811, 17633527681620⟩ ⟨18337105172234, 18427814881526⟩ ⟨16184811160862, 16888498602639⟩ = true := by decide +kernel

theorem check_power8_rrlrrrlr : cover 20 10 1 test_power8 32 ⟨17590426825811, 17633527681620⟩ ⟨18337105172234, 18427814881526⟩ ⟨16888498602639, 17592186044416⟩ = true := by decide +kernel

theorem check_power8_rrlrrrl : cover 20 10 1 test_power8 33 ⟨17590426825811, 17633527681620⟩ ⟨18337105172234, 18427814881526⟩ ⟨16184811160862, 17592186044416⟩ = true :=
  cover_t (by decide +kernel) rfl check_power8_rrlrrrll check_power8_rrlrrrlr

theorem check_power8_rrlrrrr : cover 20 10 1 test_power8 33 ⟨17633527681620, 17676628537429⟩ ⟨18337105172234, 18427814881526⟩ ⟨16184811160862, 17592186044416⟩ = true := by decide +kernel

theorem check_power8_rrlrrr : cover 20 10 1 test_power8 34 ⟨17590426825811, 17676628537429⟩ ⟨18337105172234, 18427814881526⟩ ⟨16184811160862, 17592186044416⟩ = true :=
  cover_x (by decide +kernel) rfl check_power8_rrlrrrl check_power8_rrlrrrr

theorem check_power8_rrlrr : cover 20 10 1 test_power8 35 ⟨17590426825811, 17676628537429⟩ ⟨18246395462942, 18427814881526⟩ ⟨16184811160862, 17592186044416⟩ = true :=
  cover_z (by decide +kernel) rfl check_power8_rrlrrl check_power8_rrlrrr

theorem check_power8_rrlr : cover 20 10 1 test_power8 36 ⟨17504225114193, 17676628537429⟩ ⟨18246395462942, 18427814881526⟩ ⟨16184811160862, 17592186044416⟩ = true :=
  cover_x (by decide +kernel) rfl check_power8_rrlrl check_power8_rrlrr

theorem check_power8_rrl : cover 20 10 1 test_power8 37 ⟨17504225114193, 17676628537429⟩ ⟨18064976044359, 18427814881526⟩ ⟨16184811160862, 17592186044416⟩ = true :=
  cover_z (by decide +kernel) rfl check_power8_rrll check_power8_rrlr

theorem check_power8_rrr : cover 20 10 1 test_power8 37 ⟨17676628537429, 17849031960665⟩ ⟨18064976044359, 18427814881526⟩ ⟨16184811160862, 17592186044416⟩ = true := by decide +kernel

theorem check_power8_rr : cover 20 10 1 test_power8 38 ⟨17504225114193, 17849031960665⟩ ⟨18064976044359, 18427814881526⟩ ⟨16184811160862, 17592186044416⟩ = true :=
  cover_x (by decide +kernel) rfl check_power8_rrl check_power8_rrr

theorem check_power8_r : cover 20 10 1 test_power8 39 ⟨17504225114193, 17849031960665⟩ ⟨17702137207193, 18427814881526⟩ ⟨16184811160862, 17592186044416⟩ = true :=
  cover_z (by decide +kernel) rfl check_power8_rl check_power8_rr

/-- The luminance grows at most like the power 1.998. -/
theorem check_power8 : cover 20 10 1 (linTest [⟨10000002126, 7152, 722, 0⟩, ⟨2126, 10000007152, 722, 0⟩, ⟨2126, 7152, 10000000722, 0⟩, ⟨2126000000, 7152000000, 722000000, -80000000000⟩, ⟨-2126000000, -7152000000, -722000000, 1550000000000⟩, ⟨0, 0, -10000000000, 3600000000000⟩] ⟨1784054160, 6001672320, 605873520, -2126000000, -7152000000, -722000000⟩) 40
    ⟨17504225114193, 17849031960665⟩ ⟨16976459532861, 18427814881526⟩ ⟨16184811160862, 17592186044416⟩ = true :=
  cover_z (by decide +kernel) rfl check_power8_l check_power8_r

abbrev test_power60 : Cell → Bool := linTest [⟨10000002126, 7152, 722, 0⟩, ⟨2126, 10000007152, 722, 0⟩, ⟨2126, 7152, 10000000722, 0⟩, ⟨2126000000, 7152000000, 722000000, -600000000000⟩, ⟨-2126000000, -7152000000, -722000000, 1550000000000⟩, ⟨0, 0, -10000000000, 3600000000000⟩] ⟨1767981600, 5947603200, 600415200, -2126000000, -7152000000, -722000000⟩

theorem check_power60_l : cover 10 5 1 test_power60 39 ⟨17504225114193, 17849031960665⟩ ⟨16976459532861, 17702137207193⟩ ⟨16712576742195, 17592186044416⟩ = true := by decide +kernel

theorem check_power60_rl : cover 10 5 1 test_power60 38 ⟨17504225114193, 17849031960665⟩ ⟨17702137207193, 18064976044359⟩ ⟨16712576742195, 17592186044416⟩ = true := by decide +kernel

theorem check_power60_rrl : cover 10 5 1 test_power60 37 ⟨17504225114193, 17676628537429⟩ ⟨18064976044359, 18427814881526⟩ ⟨16712576742195, 17592186044416⟩ = true := by decide +kernel

theorem check_power60_rrr : cover 10 5 1 test_power60 37 ⟨17676628537429, 17849031960665⟩ ⟨18064976044359, 18427814881526⟩ ⟨16712576742195, 17592186044416⟩ = true := by decide +kernel

theorem check_power60_rr : cover 10 5 1 test_power60 38 ⟨17504225114193, 17849031960665⟩ ⟨18064976044359, 18427814881526⟩ ⟨16712576742195, 17592186044416⟩ = true :=
  cover_x (by decide +kernel) rfl check_power60_rrl check_power60_rrr

theorem check_power60_r : cover 10 5 1 test_power60 39 ⟨17504225114193, 17849031960665⟩ ⟨17702137207193, 18427814881526⟩ ⟨16712576742195, 17592186044416⟩ = true :=
  cover_z (by decide +kernel) rfl check_power60_rl check_power60_rr

/-- The luminance grows at most like the power 1.98. -/
theorem check_power60 : cover 10 5 1 (linTest [⟨10000002126, 7152, 722, 0⟩, ⟨2126, 10000007152, 722, 0⟩, ⟨2126, 7152, 10000000722, 0⟩, ⟨2126000000, 7152000000, 722000000, -600000000000⟩, ⟨-2126000000, -7152000000, -722000000, 1550000000000⟩, ⟨0, 0, -10000000000, 3600000000000⟩] ⟨1767981600, 5947603200, 600415200, -2126000000, -7152000000, -722000000⟩) 40
    ⟨17504225114193, 17849031960665⟩ ⟨16976459532861, 18427814881526⟩ ⟨16712576742195, 17592186044416⟩ = true :=
  cover_z (by decide +kernel) rfl check_power60_l check_power60_r

end Mcu.Lemmas
