import Verif.Lemmas.F64Cost
import Verif.Props.Binary64KMeans

/-! C72 in binary64: more rounds of k-means hardly make the clustering worse. -/

namespace Mcu.Props.Binary64

open Mcu.Ieee Lemmas ColorUtils QuantizerWsmeans Spec Props

variable {L : Libm}

local notation "𝔻" => F64 L

/-- C72 in binary64, for images of at most a hundred million pixels: the centres are finite after any number of rounds, and every
further round increases the exact sum over all pixels of the squared distance to the centre of the pixel's cluster by at most
2/10^8 per pixel. -/
theorem c72_binary64_cost (hL : L.PowOk) (pixels : List Int) (maxColors : Int) (starting : List Int) (picks : List Nat)
    (hp : ValidPicks (min maxColors (countPixels pixels).length - starting.length) (countPixels pixels).length picks)
    (hm : 0 < maxColors) (hlen : pixels.length ≤ 10 ^ 8) (n m : Nat) (h : n ≤ m) :
    (∀ p ∈ pixels, FinitePoint (centreAfter 𝔻 pixels maxColors starting picks n p)) ∧
    imageCost64 pixels (centreAfter 𝔻 pixels maxColors starting picks m) ≤
      imageCost64 pixels (centreAfter 𝔻 pixels maxColors starting picks n) + (m - n) * (pixels.length * (2 / 10 ^ 8)) := by
  have good := start_good (L := L) hL hp hm
  refine ⟨?_, ?_⟩
  · intro p hpx
    have g := loop_good hL pixels hlen _ n true _ good
    have hb : Bounded (centreAfter 𝔻 pixels maxColors starting picks n p) := by
      refine g.bounded _ ?_
      have hmem := (countPixels_keys pixels p).2 hpx
      have hlt := List.idxOf_lt_length_of_mem hmem
      rw [List.length_map] at hlt
      refine g.inv.indicesLt _ ?_
      have hil := (stateAfter_inv (F := 𝔻) hp hm n).indicesLength
      show clusterAfter 𝔻 pixels maxColors starting picks n p ∈ (stateAfter 𝔻 pixels maxColors starting picks n).clusterIndices
      unfold clusterAfter
      rw [List.getD_eq_getElem?_getD, List.getElem?_eq_getElem (by omega), Option.getD_some]
      exact List.getElem_mem _
    exact ⟨hb.1.1, hb.2.1.1, hb.2.2.1⟩
  · rw [← imageCost64_eq pixels maxColors starting picks hp hm, ← imageCost64_eq pixels maxColors starting picks hp hm]
    obtain ⟨d, rfl⟩ := Nat.exists_eq_add_of_le h
    have := loop_more hL pixels hlen _ n d true _ good
    push_cast
    rw [add_sub_cancel_left]
    exact this

/-- The hypotheses hold for an image of three colours in two clusters. -/
example : ∃ picks, ValidPicks (min 2 (countPixels [0xFF000000, 0xFFFFFFFF, 0xFF0000FF, 0xFF000000]).length - ([] : List Int).length)
    (countPixels [0xFF000000, 0xFFFFFFFF, 0xFF0000FF, 0xFF000000]).length picks ∧ (0:Int) < 2 ∧
    [0xFF000000, 0xFFFFFFFF, 0xFF0000FF, (0xFF000000 : Int)].length ≤ 10 ^ 8 :=
  ⟨[2, 0], by unfold ValidPicks; decide, by decide, by decide⟩

end Mcu.Props.Binary64
