import Verif.Model.ColorUtils
import Verif.Spec.Bits
import Mathlib.Data.Nat.Bitwise
import Mathlib.Tactic.NormNum

/-! C01, C02: packing and unpacking of ARGB integers, and the bridge to 64-bit machine arithmetic. -/

namespace Mcu.Props

open Mcu.ColorUtils

/-! ### Bridge: the arithmetic model is the two's complement code -/

theorem and255_toNat (x : BitVec 64) : (x &&& 255#64).toNat = x.toNat % 256 := by
  rw [BitVec.toNat_and]
  exact Nat.and_two_pow_sub_one_eq_mod x.toNat 8

theorem and255_toInt (x : BitVec 64) : (x &&& 255#64).toInt = x.toInt % 256 := by
  have h := and255_toNat x
  have h2 : (x &&& 255#64).toInt = ((x &&& 255#64).toNat : Int) := by
    rw [BitVec.toInt_eq_toNat_of_lt]; rw [h]; omega
  have h3 := BitVec.toInt_eq_toNat_bmod x
  rw [h2, h, h3]
  have := x.isLt
  simp only [Int.bmod]
  split <;> omega

/-- `argb >> n & 255` on `i64` is floor division and remainder. -/
theorem channelI64_toInt (argb : BitVec 64) (n : Nat) :
    (Spec.channelI64 argb n).toInt = argb.toInt / 2 ^ n % 256 := by
  rw [Spec.channelI64, and255_toInt, BitVec.toInt_sshiftRight, Int.shiftRight_eq_div_pow]
  norm_cast

/-- The channel readers of the model compute what the 64-bit expressions of the source compute. -/
theorem bits_channels (argb : BitVec 64) :
    alphaFromArgb argb.toInt = (Spec.channelI64 argb 24).toInt ∧
    redFromArgb argb.toInt = (Spec.channelI64 argb 16).toInt ∧
    greenFromArgb argb.toInt = (Spec.channelI64 argb 8).toInt ∧
    blueFromArgb argb.toInt = (argb &&& 255#64).toInt := by
  simp only [channelI64_toInt, and255_toInt, alphaFromArgb, redFromArgb, greenFromArgb, blueFromArgb]
  norm_num

theorem pack_toNat (red green blue : BitVec 64) :
    (Spec.packI64 red green blue).toNat =
      255 * 16777216 + (red.toNat % 256) * 65536 + (green.toNat % 256) * 256 + blue.toNat % 256 := by
  have hr := and255_toNat red
  have hg := and255_toNat green
  have hb := and255_toNat blue
  have e1 : ((red &&& 255#64) <<< 16).toNat = (red.toNat % 256) <<< 16 := by
    rw [BitVec.toNat_shiftLeft, hr, Nat.shiftLeft_eq]; omega
  have e2 : ((green &&& 255#64) <<< 8).toNat = (green.toNat % 256) <<< 8 := by
    rw [BitVec.toNat_shiftLeft, hg, Nat.shiftLeft_eq]; omega
  rw [Spec.packI64, BitVec.toNat_or, BitVec.toNat_or, BitVec.toNat_or, e1, e2, hb]
  have e0 : (255#64 <<< 24).toNat = 255 <<< 24 := by decide
  rw [e0]
  have s1 := Nat.shiftLeft_add_eq_or_of_lt
    (show (red.toNat % 256) <<< 16 < 2 ^ 24 by rw [Nat.shiftLeft_eq]; omega) 255
  rw [← s1]
  have s2 : 255 <<< 24 + (red.toNat % 256) <<< 16 = (255 * 256 + red.toNat % 256) <<< 16 := by
    simp only [Nat.shiftLeft_eq]; omega
  have s3 := Nat.shiftLeft_add_eq_or_of_lt
    (show (green.toNat % 256) <<< 8 < 2 ^ 16 by rw [Nat.shiftLeft_eq]; omega)
    (255 * 256 + red.toNat % 256)
  rw [s2, ← s3]
  have s4 : (255 * 256 + red.toNat % 256) <<< 16 + (green.toNat % 256) <<< 8 =
      ((255 * 256 + red.toNat % 256) * 256 + green.toNat % 256) <<< 8 := by
    simp only [Nat.shiftLeft_eq]; omega
  have s5 := Nat.shiftLeft_add_eq_or_of_lt
    (show blue.toNat % 256 < 2 ^ 8 by omega)
    ((255 * 256 + red.toNat % 256) * 256 + green.toNat % 256)
  rw [s4, ← s5]
  simp only [Nat.shiftLeft_eq]; omega

/-- The packing function of the model computes what the 64-bit expression of the source computes, for
all 64-bit arguments. -/
theorem bits_pack (red green blue : BitVec 64) :
    argbFromRgb red.toInt green.toInt blue.toInt = (Spec.packI64 red green blue).toInt := by
  have h := pack_toNat red green blue
  have hp : (Spec.packI64 red green blue).toInt = ((Spec.packI64 red green blue).toNat : Int) := by
    rw [BitVec.toInt_eq_toNat_of_lt]; rw [h]; omega
  have m (x : BitVec 64) : x.toInt % 256 = ((x.toNat % 256 : Nat) : Int) := by
    rw [← and255_toInt, ← and255_toNat, BitVec.toInt_eq_toNat_of_lt]; rw [and255_toNat]; omega
  rw [hp, h, argbFromRgb, m, m, m]
  push_cast
  rfl

/-! ### C01 -/

/-- C01: reading a channel of a packed colour returns the packed channel modulo 256, whatever the other
channels are. -/
theorem c01_channels (r g b : Int) :
    redFromArgb (argbFromRgb r g b) = r % 256 ∧ greenFromArgb (argbFromRgb r g b) = g % 256 ∧
    blueFromArgb (argbFromRgb r g b) = b % 256 ∧ alphaFromArgb (argbFromRgb r g b) = 255 := by
  simp only [redFromArgb, greenFromArgb, blueFromArgb, alphaFromArgb, argbFromRgb]
  omega

/-- C01: for channel values 0..255 packing then reading is the identity. -/
theorem c01_pack_unpack (r g b : Int) (hr : 0 ≤ r ∧ r ≤ 255) (hg : 0 ≤ g ∧ g ≤ 255)
    (hb : 0 ≤ b ∧ b ≤ 255) :
    redFromArgb (argbFromRgb r g b) = r ∧ greenFromArgb (argbFromRgb r g b) = g ∧
    blueFromArgb (argbFromRgb r g b) = b := by
  have h := c01_channels r g b
  omega

example : (0 ≤ (18 : Int) ∧ (18 : Int) ≤ 255) ∧ redFromArgb (argbFromRgb 18 52 86) = 18 := by decide

/-- C01: a packed colour is opaque and lies in `0xFF000000..0xFFFFFFFF`, for all channel arguments. -/
theorem c01_pack_opaque (r g b : Int) :
    isOpaque (argbFromRgb r g b) = true ∧
    0xFF000000 ≤ argbFromRgb r g b ∧ argbFromRgb r g b ≤ 0xFFFFFFFF := by
  have h := c01_channels r g b
  refine ⟨?_, ?_⟩
  · simp only [isOpaque, h.2.2.2]; decide
  · simp only [argbFromRgb]; omega

/-- C01 for machine integers: the 64-bit expressions of the source themselves. -/
theorem c01_i64 (r g b : BitVec 64) :
    (Spec.channelI64 (Spec.packI64 r g b) 16).toInt = r.toInt % 256 ∧
    (Spec.channelI64 (Spec.packI64 r g b) 8).toInt = g.toInt % 256 ∧
    (Spec.packI64 r g b &&& 255#64).toInt = b.toInt % 256 ∧
    (Spec.channelI64 (Spec.packI64 r g b) 24).toInt = 255 := by
  have hc := bits_channels (Spec.packI64 r g b)
  rw [← hc.1, ← hc.2.1, ← hc.2.2.1, ← hc.2.2.2, ← bits_pack]
  exact c01_channels _ _ _

/-! ### C02 -/

/-- C02: rebuilding a colour from its channels keeps the low 24 bits and sets alpha to 255. -/
theorem c02_unpack_pack (argb : Int) :
    argbFromRgb (redFromArgb argb) (greenFromArgb argb) (blueFromArgb argb) =
      0xFF000000 + argb % 16777216 := by
  simp only [redFromArgb, greenFromArgb, blueFromArgb, argbFromRgb]; omega

/-- C02: on opaque 32-bit colours it is the identity. -/
theorem c02_opaque_identity (argb : Int) (h : 0xFF000000 ≤ argb ∧ argb ≤ 0xFFFFFFFF) :
    argbFromRgb (redFromArgb argb) (greenFromArgb argb) (blueFromArgb argb) = argb := by
  rw [c02_unpack_pack]; omega

example : (0xFF000000 : Int) ≤ 0xFF123456 ∧ (0xFF123456 : Int) ≤ 0xFFFFFFFF := by decide

/-- C02: packing is a bijection between channel triples in 0..255 and the colours
`0xFF000000..0xFFFFFFFF`. -/
theorem c02_bijection (argb : Int) (h : 0xFF000000 ≤ argb ∧ argb ≤ 0xFFFFFFFF) :
    ∃! c : Int × Int × Int, (0 ≤ c.1 ∧ c.1 ≤ 255) ∧ (0 ≤ c.2.1 ∧ c.2.1 ≤ 255) ∧
      (0 ≤ c.2.2 ∧ c.2.2 ≤ 255) ∧ argbFromRgb c.1 c.2.1 c.2.2 = argb := by
  refine ⟨(redFromArgb argb, greenFromArgb argb, blueFromArgb argb), ?_, ?_⟩
  · refine ⟨?_, ?_, ?_, c02_opaque_identity argb h⟩ <;>
      simp only [redFromArgb, greenFromArgb, blueFromArgb] <;> omega
  · rintro ⟨r, g, b⟩ ⟨hr, hg, hb, rfl⟩
    have := c01_pack_unpack r g b hr hg hb
    simp only [this.1, this.2.1, this.2.2]

end Mcu.Props
