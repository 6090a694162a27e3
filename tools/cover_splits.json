[
"check_fast16",
"check_fast16_l",
"check_fast16_ll",
"check_fast16_lll",
"check_fast16_llll",
"check_fast16_lllll",
"check_fast64",
"check_fast64_l",
"check_full_r",
"check_full_r_l",
"check_full_r_lr",
"check_full_r_lrr",
"check_full_r_lrrl",
"check_full_r_lrrlr",
"check_full_r_lrrlrr",
"check_full_r_lrrlrrl",
"check_full_r_lrrlrrlr",
"check_guess_r",
"check_guess_b",
"check_guess_b_l",
"check_guess_b_lr",
"check_guess_b_lrl",
"check_guess_b_lrll",
"check_guess_b_lrllr",
"check_power0",
"check_power0_r",
"check_power0_rl",
"check_power0_rlr",
"check_power0_rlrl",
"check_power0_rlrr",
"check_power003",
"check_power003_r",
"check_power003_rl",
"check_power003_rlr",
"check_power003_rlrl",
"check_power003_rlrlr",
"check_power003_rlrlrl",
"check_power003_rlrlrlr",
"check_power003_rlrlrlrr",
"check_power003_rlrlrr",
"check_power003_rlrlrrr",
"check_power003_rlrlrrrr",
"check_power003_rlrr",
"check_power003_rlrrr",
"check_power003_rlrrrr",
"check_power003_rr",
"check_power01",
"check_power01_r",
"check_power01_rr",
"check_power01_rrl",
"check_power01_rrlr",
"check_power01_rrlrl",
"check_power01_rrlrll",
"check_power01_rrlrllr",
"check_power01_rrlrllrr",
"check_power01_rrlrlr",
"check_power01_rrlrlrr",
"check_power01_rrlrlrrl",
"check_power01_rrlrlrrr",
"check_power01_rrlrlrrrl",
"check_power01_rrlrlrrrlr",
"check_power01_rrlrlrrrlrl",
"check_power01_rrlrlrrrlrlr",
"check_power01_rrlrr",
"check_power01_rrlrrr",
"check_power01_rrlrrrr",
"check_power01_rrlrrrrl",
"check_power8",
"check_power8_r",
"check_power8_rr",
"check_power8_rrl",
"check_power8_rrlr",
"check_power8_rrlrl",
"check_power8_rrlrlr",
"check_power8_rrlrlrl",
"check_power8_rrlrlrll",
"check_power8_rrlrlrllr",
"check_power8_rrlrlrllrr",
"check_power8_rrlrlrllrrr",
"check_power8_rrlrlrllrrrr",
"check_power8_rrlrlrllrrrrr",
"check_power8_rrlrlrllrrrrrr",
"check_power8_rrlrlrr",
"check_power8_rrlrlrrl",
"check_power8_rrlrlrrlr",
"check_power8_rrlrlrrlrl",
"check_power8_rrlrlrrlrlr",
"check_power8_rrlrlrrlrlrr",
"check_power8_rrlrlrrlrlrrl",
"check_power8_rrlrlrrlrr",
"check_power8_rrlrr",
"check_power8_rrlrrl",
"check_power8_rrlrrr",
"check_power8_rrlrrrl",
"check_power60",
"check_power60_r",
"check_power60_rr"
]