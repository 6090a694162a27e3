import Verif.Lemmas.CoverA

/-! Box checks, written by tools/gen_cover.py. -/

set_option maxRecDepth 100000

namespace Mcu.Lemmas

abbrev test_power0 : Cell → Bool := linTest [⟨10000002126, 7152, 722, 0⟩, ⟨2126, 10000007152, 722, 0⟩, ⟨2126, 7152, 10000000722, 0⟩, ⟨2126000000, 7152000000, 722000000, -20000000⟩, ⟨-2126000000, -7152000000, -722000000, 1550000000000⟩, ⟨0, 0, -10000000000, 3600000000000⟩] ⟨1812627600, 6097795200, 615577200, -2126000000, -7152000000, -722000000⟩

theorem check_power0_l : cover 25 6 1 test_power0 39 ⟨17504225114193, 17849031960665⟩ ⟨16976459532861, 17702137207193⟩ ⟨13721905114644, 17592186044416⟩ = true := by decide +kernel

theorem check_power0_rll : cover 25 6 1 test_power0 37 ⟨17504225114193, 17676628537429⟩ ⟨17702137207193, 18064976044359⟩ ⟨13721905114644, 17592186044416⟩ = true := by decide +kernel

theorem check_power0_rlrll : cover 25 6 1 test_power0 35 ⟨17504225114193, 17590426825811⟩ ⟨18064976044359, 18427814881526⟩ ⟨13721905114644, 15657045579530⟩ = true := by decide +kernel

theorem check_power0_rlrlr : cover 25 6 1 test_power0 35 ⟨17504225114193, 17590426825811⟩ ⟨18064976044359, 18427814881526⟩ ⟨15657045579530, 17592186044416⟩ = true := by decide +kernel

theorem check_power0_rlrl : cover 25 6 1 test_power0 36 ⟨17504225114193, 17590426825811⟩ ⟨18064976044359, 18427814881526⟩ ⟨13721905114644, 17592186044416⟩ = true :=
  cover_t (by decide +kernel) rfl check_power0_rlrll check_power0_rlrlr

theorem check_power0_rlrrl : cover 25 6 1 test_power0 35 ⟨17590426825811, 17676628537429⟩ ⟨18064976044359, 18427814881526⟩ ⟨13721905114644, 15657045579530⟩ = true := by decide +kernel

theorem check_power0_rlrrr : cover 25 6 1 test_power0 35 ⟨17590426825811, 17676628537429⟩ ⟨18064976044359, 18427814881526⟩ ⟨15657045579530, 17592186044416⟩ = true := by decide +kernel

theorem check_power0_rlrr : cover 25 6 1 test_power0 36 ⟨17590426825811, 17676628537429⟩ ⟨18064976044359, 18427814881526⟩ ⟨13721905114644, 17592186044416⟩ = true :=
  cover_t (by decide +kernel) rfl check_power0_rlrrl check_power0_rlrrr

theorem check_power0_rlr : cover 25 6 1 test_power0 37 ⟨17504225114193, 17676628537429⟩ ⟨18064976044359, 18427814881526⟩ ⟨13721905114644, 17592186044416⟩ = true :=
  cover_x (by decide +kernel) rfl check_power0_rlrl check_power0_rlrr

theorem check_power0_rl : cover 25 6 1 test_power0 38 ⟨17504225114193, 17676628537429⟩ ⟨17702137207193, 18427814881526⟩ ⟨13721905114644, 17592186044416⟩ = true :=
  cover_z (by decide +kernel) rfl check_power0_rll check_power0_rlr

theorem check_power0_rr : cover 25 6 1 test_power0 38 ⟨17676628537429, 17849031960665⟩ ⟨17702137207193, 18427814881526⟩ ⟨13721905114644, 17592186044416⟩ = true := by decide +kernel

theorem check_power0_r : cover 25 6 1 test_power0 39 ⟨17504225114193, 17849031960665⟩ ⟨17702137207193, 18427814881526⟩ ⟨13721905114644, 17592186044416⟩ = true :=
  cover_x (by decide +kernel) rfl check_power0_rl check_power0_rr

/-- The luminance grows at most like the power 2.03. -/
theorem check_power0 : cover 25 6 1 (linTest [⟨10000002126, 7152, 722, 0⟩, ⟨2126, 10000007152, 722, 0⟩, ⟨2126, 7152, 10000000722, 0⟩, ⟨2126000000, 7152000000, 722000000, -20000000⟩, ⟨-2126000000, -7152000000, -722000000, 1550000000000⟩, ⟨0, 0, -10000000000, 3600000000000⟩] ⟨1812627600, 6097795200, 615577200, -2126000000, -7152000000, -722000000⟩) 40
    ⟨17504225114193, 17849031960665⟩ ⟨16976459532861, 18427814881526⟩ ⟨13721905114644, 17592186044416⟩ = true :=
  cover_z (by decide +kernel) rfl check_power0_l check_power0_r

abbrev test_power003 : Cell → Bool := linTest [⟨10000002126, 7152, 722, 0⟩, ⟨2126, 10000007152, 722, 0⟩, ⟨2126, 7152, 10000000722, 0⟩, ⟨2126000000, 7152000000, 722000000, -300000000⟩, ⟨-2126000000, -7152000000, -722000000, 1550000000000⟩, ⟨0, 0, -10000000000, 3600000000000⟩] ⟨1788518760, 6016691520, 607389720, -2126000000, -7152000000, -722000000⟩

theorem check_power003_l : cover 25 10 1 test_power003 39 ⟨17504225114193, 17849031960665⟩ ⟨16976459532861, 17702137207193⟩ ⟨14425592556421, 17592186044416⟩ = true := by decide +kernel

theorem check_power003_rll : cover 25 10 1 test_power003 37 ⟨17504225114193, 17676628537429⟩ ⟨17702137207193, 18064976044359⟩ ⟨14425592556421, 17592186044416⟩ = true := by decide +kernel

theorem check_power003_rlrll : cover 25 10 1 test_power003 35 ⟨17504225114193, 17590426825811⟩ ⟨18064976044359, 18246395462942⟩ ⟨14425592556421, 17592186044416⟩ = true := by decide +kernel

theorem check_power003_rlrlrll : cover 25 10 1 test_power003 33 ⟨17504225114193, 17547325970002⟩ ⟨18246395462942, 18427814881526⟩ ⟨14425592556421, 16008889300418⟩ = true := by decide +kernel

theorem check_power003_rlrlrlrl : cover 25 10 1 test_power003 32 ⟨17547325970002, 17590426825811⟩ ⟨18246395462942, 18337105172234⟩ ⟨14425592556421, 16008889300418⟩ = true := by decide +kernel

theorem check_power003_rlrlrlrrl : cover 25 10 1 test_power003 31 ⟨17547325970002, 17590426825811⟩ ⟨18337105172234, 18427814881526⟩ ⟨14425592556421, 15217240928419⟩ = true := by decide +kernel

theorem check_power003_rlrlrlrrr : cover 25 10 1 test_power003 31 ⟨17547325970002, 17590426825811⟩ ⟨18337105172234, 18427814881526⟩ ⟨15217240928419, 16008889300418⟩ = true := by decide +kernel

theorem check_power003_rlrlrlrr : cover 25 10 1 test_power003 32 ⟨17547325970002, 17590426825811⟩ ⟨18337105172234, 18427814881526⟩ ⟨14425592556421, 16008889300418⟩ = true :=
  cover_t (by decide +kernel) rfl check_power003_rlrlrlrrl check_power003_rlrlrlrrr

theorem check_power003_rlrlrlr : cover 25 10 1 test_power003 33 ⟨17547325970002, 17590426825811⟩ ⟨18246395462942, 18427814881526⟩ ⟨14425592556421, 16008889300418⟩ = true :=
  cover_z (by decide +kernel) rfl check_power003_rlrlrlrl check_power003_rlrlrlrr

theorem check_power003_rlrlrl : cover 25 10 1 test_power003 34 ⟨17504225114193, 17590426825811⟩ ⟨18246395462942, 18427814881526⟩ ⟨14425592556421, 16008889300418⟩ = true :=
  cover_x (by decide +kernel) rfl check_power003_rlrlrll check_power003_rlrlrlr

theorem check_power003_rlrlrrl : cover 25 10 1 test_power003 33 ⟨17504225114193, 17547325970002⟩ ⟨18246395462942, 18427814881526⟩ ⟨16008889300418, 17592186044416⟩ = true := by decide +kernel

theorem check_power003_rlrlrrrl : cover 25 10 1 test_power003 32 ⟨17547325970002, 17590426825811⟩ ⟨18246395462942, 18337105172234⟩ ⟨16008889300418, 17592186044416⟩ = true := by decide +kernel

theorem check_power003_rlrlrrrrl : cover 25 10 1 test_power003 31 ⟨17547325970002, 17590426825811⟩ ⟨18337105172234, 18427814881526⟩ ⟨16008889300418, 16800537672417⟩ = true := by decide +kernel

theorem check_power003_rlrlrrrrr : cover 25 10 1 test_power003 31 ⟨17547325970002, 17590426825811⟩ ⟨18337105172234, 18427814881526⟩ ⟨16800537672417, 17592186044416⟩ = true := by decide +kernel

theorem check_power003_rlrlrrrr : cover 25 10 1 test_power003 32 ⟨17547325970002, 17590426825811⟩ ⟨18337105172234, 18427814881526⟩ ⟨16008889300418, 17592186044416⟩ = true :=
  cover_t (by decide +kernel) rfl check_power003_rlrlrrrrl check_power003_rlrlrrrrr

theorem check_power003_rlrlrrr : cover 25 10 1 test_power003 33 ⟨17547325970002, 17590426825811⟩ ⟨18246395462942, 18427814881526⟩ ⟨16008889300418, 17592186044416⟩ = true :=
  cover_z (by decide +kernel) rfl check_power003_rlrlrrrl check_power003_rlrlrrrr

theorem check_power003_rlrlrr : cover 25 10 1 test_power003 34 ⟨17504225114193, 17590426825811⟩ ⟨18246395462942, 18427814881526⟩ ⟨16008889300418, 17592186044416⟩ = true :=
  cover_x (by decide +kernel) rfl check_power003_rlrlrrl check_power003_rlrlrrr

theorem check_power003_rlrlr : cover 25 10 1 test_power003 35 ⟨17504225114193, 17590426825811⟩ ⟨18246395462942, 18427814881526⟩ ⟨14425592556421, 17592186044416⟩ = true :=
  cover_t (by decide +kernel) rfl check_power003_rlrlrl check_power003_rlrlrr

theorem check_power003_rlrl : cover 25 10 1 test_power003 36 ⟨17504225114193, 17590426825811⟩ ⟨18064976044359, 18427814881526⟩ ⟨14425592556421, 17592186044416⟩ = true :=
  cover_z (by decide +kernel) rfl check_power003_rlrll check_power003_rlrlr

theorem check_power003_rlrrl : cover 25 10 1 test_power003 35 ⟨17590426825811, 17676628537429⟩ ⟨18064976044359, 18246395462942⟩ ⟨14425592556421, 17592186044416⟩ = true := by decide +kernel

theorem check_power003_rlrrrl : cover 25 10 1 test_power003 34 ⟨17590426825811, 17676628537429⟩ ⟨18246395462942, 18427814881526⟩ ⟨14425592556421, 16008889300418⟩ = true := by decide +kernel

theorem check_power003_rlrrrrl : cover 25 10 1 test_power003 33 ⟨17590426825811, 17633527681620⟩ ⟨18246395462942, 18427814881526⟩ ⟨16008889300418, 17592186044416⟩ = true := by decide +kernel

theorem check_power003_rlrrrrr : cover 25 10 1 test_power003 33 ⟨17633527681620, 17676628537429⟩ ⟨18246395462942, 18427814881526⟩ ⟨16008889300418, 17592186044416⟩ = true := by decide +kernel

theorem check_power003_rlrrrr : cover 25 10 1 test_power003 34 ⟨17590426825811, 17676628537429⟩ ⟨18246395462942, 18427814881526⟩ ⟨16008889300418, 17592186044416⟩ = true :=
  cover_x (by decide +kernel) rfl check_power003_rlrrrrl check_power003_rlrrrrr

theorem check_power003_rlrrr : cover 25 10 1 test_power003 35 ⟨17590426825811, 17676628537429⟩ ⟨18246395462942, 18427814881526⟩ ⟨14425592556421, 17592186044416⟩ = true :=
  cover_t (by decide +kernel) rfl check_power003_rlrrrl check_power003_rlrrrr

theorem check_power003_rlrr : cover 25 10 1 test_power003 36 ⟨17590426825811, 17676628537429⟩ ⟨18064976044359, 18427814881526⟩ ⟨14425592556421, 17592186044416⟩ = true :=
  cover_z (by decide +kernel) rfl check_power003_rlrrl check_power003_rlrrr

theorem check_power003_rlr : cover 25 10 1 test_power003 37 ⟨17504225114193, 17676628537429⟩ ⟨18064976044359, 18427814881526⟩ ⟨14425592556421, 17592186044416⟩ = true :=
  cover_x (by decide +kernel) rfl check_power003_rlrl check_power003_rlrr

theorem check_power003_rl : cover 25 10 1 test_power003 38 ⟨17504225114193, 17676628537429⟩ ⟨17702137207193, 18427814881526⟩ ⟨14425592556421, 17592186044416⟩ = true :=
  cover_z (by decide +kernel) rfl check_power003_rll check_power003_rlr

theorem check_power003_rrl : cover 25 10 1 test_power003 37 ⟨17676628537429, 17849031960665⟩ ⟨17702137207193, 18064976044359⟩ ⟨14425592556421, 17592186044416⟩ = true := by decide +kernel

theorem check_power003_rrr : cover 25 10 1 test_power003 37 ⟨17676628537429, 17849031960665⟩ ⟨18064976044359, 18427814881526⟩ ⟨14425592556421, 17592186044416⟩ = true := by decide +kernel

theorem check_power003_rr : cover 25 10 1 test_power003 38 ⟨17676628537429, 17849031960665⟩ ⟨17702137207193, 18427814881526⟩ ⟨14425592556421, 17592186044416⟩ = true :=
  cover_z (by decide +kernel) rfl check_power003_rrl check_power003_rrr

theorem check_power003_r : cover 25 10 1 test_power003 39 ⟨17504225114193, 17849031960665⟩ ⟨17702137207193, 18427814881526⟩ ⟨14425592556421, 17592186044416⟩ = true :=
  cover_x (by decide +kernel) rfl check_power003_rl check_power003_rr

/-- The luminance grows at most like the power 2.003. -/
theorem check_power003 : cover 25 10 1 (linTest [⟨10000002126, 7152, 722, 0⟩, ⟨2126, 10000007152, 722, 0⟩, ⟨2126, 7152, 10000000722, 0⟩, ⟨2126000000, 7152000000, 722000000, -300000000⟩, ⟨-2126000000, -7152000000, -722000000, 1550000000000⟩, ⟨0, 0, -10000000000, 3600000000000⟩] ⟨1788518760, 6016691520, 607389720, -2126000000, -7152000000, -722000000⟩) 40
    ⟨17504225114193, 17849031960665⟩ ⟨16976459532861, 18427814881526⟩ ⟨14425592556421, 17592186044416⟩ = true :=
  cover_z (by decide +kernel) rfl check_power003_l check_power003_r

end Mcu.Lemmas
