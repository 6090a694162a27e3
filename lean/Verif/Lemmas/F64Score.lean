import Verif.Props.Binary64Hue
import Verif.Props.Score
import Verif.Lemmas.F64Wheel
import Verif.Spec.ScoreBy

/-! Scoring in IEEE-754 binary64. -/

namespace Mcu.Score

open Mcu.Ieee Mcu.Lemmas Mcu.Props Mcu.Props.Binary64 MathUtils Mcu.Spec

/-! ### Selection, for any arithmetic -/

section anyArithmetic

variable {F : Type} [Fl F]

/-- Two colours are too close in hue for the distance `d`. -/
def Close (d : Int) (a b : Hct F) : Prop := differenceDegrees a.getHue b.getHue < (Fl.ofInt d : F)

theorem duplicate_close (chosen : List (Hct F)) (h : Hct F) (d : Int) : duplicateHue chosen h d = true ↔ ∃ t ∈ chosen, Close d h t := by
  unfold duplicateHue Close
  rw [List.any_eq_true]
  simp

theorem pickAll_ok (d : Int) (l : List (ScoredHct F)) : ∀ chosen : List (Hct F), chosen.Pairwise (fun a b => ¬ Close d b a) →
    (pickAll d l chosen).Pairwise (fun a b => ¬ Close d b a) ∧
      ∀ e ∈ l, e.hct ∈ pickAll d l chosen ∨ ∃ t ∈ pickAll d l chosen, Close d e.hct t := by
  induction l with
  | nil => intro chosen h; exact ⟨h, by simp⟩
  | cons e rest ih =>
    intro chosen h
    have hall : pickAll d (e :: rest) chosen = pickAll d rest (pick d chosen e.hct) := rfl
    rw [hall]
    have hp : (pick d chosen e.hct).Pairwise (fun a b => ¬ Close d b a) ∧ (e.hct ∈ pick d chosen e.hct ∨ ∃ t ∈ pick d chosen e.hct, Close d e.hct t) := by
      unfold pick
      split
      · rename_i hd
        exact ⟨h, .inr ((duplicate_close _ _ _).1 hd)⟩
      · rename_i hd
        refine ⟨List.pairwise_append.2 ⟨h, by simp, ?_⟩, .inl (by simp)⟩
        intro a ha b hb hc
        rw [List.mem_singleton] at hb
        exact hd ((duplicate_close _ _ _).2 ⟨a, ha, hb ▸ hc⟩)
    obtain ⟨i1, i2⟩ := ih _ hp.1
    refine ⟨i1, fun x hx => ?_⟩
    rcases List.mem_cons.1 hx with rfl | hx
    · have hs := (pickAll_prefix d rest (pick d chosen x.hct)).subset
      rcases hp.2 with h2 | ⟨t, h2, h3⟩
      · exact .inl (hs h2)
      · exact .inr ⟨t, hs h2, h3⟩
    · exact i2 x hx

/-! ### Shares, for any arithmetic -/

theorem modify_iter {α : Type} (f : Nat → Nat) (g : α → α) (dflt : α) (ks : List Nat) : ∀ acc : List α, acc.length = 360 →
    (ks.foldl (fun acc k => acc.modify (f k) g) acc).length = 360 ∧
    ∀ n : Nat, n < 360 → (ks.foldl (fun acc k => acc.modify (f k) g) acc).getD n dflt =
      g^[(ks.map fun k => if f k = n then 1 else 0).sum] (acc.getD n dflt) := by
  induction ks with
  | nil => intro acc hl; exact ⟨hl, fun n _ => rfl⟩
  | cons k rest ih =>
    intro acc hl
    rw [List.foldl_cons]
    obtain ⟨i1, i2⟩ := ih (acc.modify (f k) g) (by rw [List.length_modify]; exact hl)
    refine ⟨i1, fun n hn => ?_⟩
    rw [i2 n hn, List.map_cons, List.sum_cons]
    by_cases hc : f k = n
    · rw [if_pos hc, hc, QuantizerWsmeans.getD_modify_self _ _ _ _ (by omega), Nat.add_comm, Function.iterate_succ_apply]
    · rw [if_neg hc, QuantizerWsmeans.getD_modify_ne _ _ _ _ _ hc, Nat.zero_add]

theorem spread_any (acc : List F) (hue : Nat) (p : F) (hl : acc.length = 360) :
    (spread acc hue p).length = 360 ∧
    ∀ n : Nat, n < 360 → (spread acc hue p).getD n 0.0 = if Neighbours n hue then acc.getD n 0.0 + p else acc.getD n 0.0 := by
  obtain ⟨h1, h2⟩ := modify_iter (fun k => (sanitizeDegreesInt ((hue : Int) - 14 + k)).toNat) (· + p) 0.0 (List.range 30) acc hl
  refine ⟨h1, fun n hn => ?_⟩
  have := h2 n hn
  unfold spread
  rw [this]
  have hj := Int.emod_nonneg ((n : Int) - hue + 14) (by decide : (360:Int) ≠ 0)
  have hs := sum_indicator (1 : ℕ) (((n : Int) - hue + 14) % 360) hj 30
  have e : ((List.range 30).map fun (k : Nat) => if (sanitizeDegreesInt ((hue : Int) - 14 + k)).toNat = n then 1 else 0).sum =
      if ((n : Int) - hue + 14) % 360 < ((30 : Nat) : Int) then 1 else 0 := by
    rw [← hs]
    refine congrArg List.sum (List.map_congr_left ?_)
    intro k hk
    have hk' := List.mem_range.1 hk
    rw [sanitize_int_eq]
    have : ((((hue : Int) - 14 + k) % 360).toNat = n) ↔ ((k : Int) = ((n : Int) - hue + 14) % 360) := by omega
    by_cases hc : (k : Int) = ((n : Int) - hue + 14) % 360
    · rw [if_pos (this.2 hc), if_pos hc]
    · rw [if_neg (fun h => hc (this.1 h)), if_neg hc]
  rw [e]
  have hN : Neighbours n hue ↔ ((n : Int) - hue + 14) % 360 < ((30 : Nat) : Int) := Iff.rfl
  by_cases hc : Neighbours n hue
  · rw [if_pos hc, if_pos (hN.1 hc)]; rfl
  · rw [if_neg hc, if_neg (fun h => hc (hN.2 h))]; rfl

end anyArithmetic

/-! ### The histogram -/

variable {L : Libm}

local notation "𝔻" => F64 L

/-- The computed hue of a colour. -/
noncomputable def hueC (L : Libm) (c : Int) : ℝ := val (Hct.fromInt c : Hct (F64 L)).getHue

/-- The computed chroma of a colour. -/
noncomputable def chromaC (L : Libm) (c : Int) : ℝ := val (Hct.fromInt c : Hct (F64 L)).getChroma

theorem hueC_range (hS : L.Sound) (hT : L.TempOk) (hZ : L.AtanZero) (c : Int) :
    Is (Hct.fromInt c : Hct 𝔻).getHue (hueC L c) ∧ 0 ≤ hueC L c ∧ hueC L c < 360 := by
  obtain ⟨v, iv, v0, v1⟩ := hue_lt hS hT hZ c
  have iv : Is (Hct.fromInt c : Hct 𝔻).getHue v := iv
  have e : hueC L c = v := iv.2
  rw [e]
  exact ⟨iv, v0, lt_of_le_of_lt v1 (by norm_num)⟩

theorem floor_hueC (hS : L.Sound) (hT : L.TempOk) (hZ : L.AtanZero) (c : Int) : (Fl.toI64 (Fl.floor (Hct.fromInt c : Hct 𝔻).getHue)).toNat < 360 ∧
    (((Fl.toI64 (Fl.floor (Hct.fromInt c : Hct 𝔻).getHue)).toNat : Nat) : Int) = ⌊hueC L c⌋ := by
  obtain ⟨i, h0, h1⟩ := hueC_range hS hT hZ c
  have f0 : 0 ≤ ⌊hueC L c⌋ := Int.floor_nonneg.2 h0
  have f1 : ⌊hueC L c⌋ < 360 := Int.floor_lt.2 (by exact_mod_cast h1)
  rw [toI64_floor64 i (by rw [abs_of_nonneg h0]; linarith)]
  omega

/-- The population of a whole degree of hue. -/
noncomputable def popBy (hue : Int → ℝ) (entries : List (Int × Int)) (m : Int) : Int :=
  (entries.map fun e => if ⌊hue e.1⌋ = m then e.2 else 0).sum

theorem histogram_fold64 (hS : L.Sound) (hT : L.TempOk) (hZ : L.AtanZero) (entries : List (Int × Int)) : ∀ h : Histogram 𝔻, h.huePopulation.length = 360 →
    ∃ h', entries.foldlM addColor h = some h' ∧ h'.huePopulation.length = 360 ∧
      h'.populationSum = h.populationSum + population entries ∧
      ∀ m : Nat, m < 360 → h'.huePopulation.getD m 0 = h.huePopulation.getD m 0 + popBy (hueC L) entries m := by
  induction entries with
  | nil => intro h hl; exact ⟨h, rfl, hl, by simp [population], by simp [popBy]⟩
  | cons e rest ih =>
    intro h hl
    obtain ⟨f1, f2⟩ := floor_hueC hS hT hZ e.1
    have ha : addColor h e = some { colorsHct := h.colorsHct ++ [Hct.fromInt e.1]
                                    huePopulation := h.huePopulation.modify (Fl.toI64 (Fl.floor (Hct.fromInt e.1 : Hct 𝔻).getHue)).toNat (· + e.2)
                                    populationSum := h.populationSum + e.2 } := if_pos f1
    rw [List.foldlM_cons, ha]
    obtain ⟨h', i1, i2, i3, i4⟩ := ih
      { colorsHct := h.colorsHct ++ [Hct.fromInt e.1]
        huePopulation := h.huePopulation.modify (Fl.toI64 (Fl.floor (Hct.fromInt e.1 : Hct 𝔻).getHue)).toNat (· + e.2)
        populationSum := h.populationSum + e.2 } (by rw [List.length_modify]; exact hl)
    refine ⟨h', i1, i2, ?_, ?_⟩
    · rw [i3]; simp only [population, List.map_cons, List.sum_cons]; ring
    · intro m hm
      rw [i4 m hm]
      simp only
      have hp : popBy (hueC L) (e :: rest) m = (if ⌊hueC L e.1⌋ = (m : Int) then e.2 else 0) + popBy (hueC L) rest m := by
        simp only [popBy, List.map_cons, List.sum_cons]
      rw [hp]
      by_cases hc : ⌊hueC L e.1⌋ = (m : Int)
      · have : (Fl.toI64 (Fl.floor (Hct.fromInt e.1 : Hct 𝔻).getHue)).toNat = m := by omega
        rw [if_pos hc, this, QuantizerWsmeans.getD_modify_self _ _ _ _ (by omega)]
        ring
      · rw [if_neg hc, QuantizerWsmeans.getD_modify_ne _ _ _ _ _ (by omega)]
        ring

theorem histogram_ok64 (hS : L.Sound) (hT : L.TempOk) (hZ : L.AtanZero) (entries : List (Int × Int)) : ∃ h : Histogram 𝔻, histogram entries = some h ∧
    h.colorsHct = entries.map (fun e => Hct.fromInt e.1) ∧ h.populationSum = population entries ∧ h.huePopulation.length = 360 ∧
    ∀ m : Nat, m < 360 → h.huePopulation.getD m 0 = popBy (hueC L) entries m := by
  obtain ⟨h, h1, h2, h3, h4⟩ := histogram_fold64 hS hT hZ entries
    { colorsHct := [], huePopulation := List.replicate 360 0, populationSum := 0 } List.length_replicate
  refine ⟨h, h1, ?_, by rw [h3]; exact zero_add _, h2, ?_⟩
  · have := histogram_colors entries _ h h1
    simpa using this
  · intro m hm
    rw [h4 m hm]
    simp only
    rw [List.getD_eq_getElem?_getD, List.getElem?_replicate, if_pos hm]
    exact zero_add _

/-! ### Shares -/

theorem popNearBy_eq (hue : Int → ℝ) (hr : ∀ c, 0 ≤ hue c ∧ hue c < 360) (entries : List (Int × Int)) (n : Int) :
    ((List.range 360).map fun (m : Nat) => if Neighbours n m then popBy hue entries m else 0).sum = populationNearBy hue entries n := by
  induction entries with
  | nil =>
    have : (fun (m : Nat) => if Neighbours n m then popBy hue [] m else 0) = fun _ => (0 : Int) := by
      funext m
      simp [popBy]
    rw [this, List.map_const', List.sum_replicate, smul_zero]
    rfl
  | cons e rest ih =>
    have hp : ∀ m : Int, popBy hue (e :: rest) m = (if ⌊hue e.1⌋ = m then e.2 else 0) + popBy hue rest m := by
      intro m; simp only [popBy, List.map_cons, List.sum_cons]
    have hs : ((List.range 360).map fun (m : Nat) => if Neighbours n m then popBy hue (e :: rest) m else 0) =
        (List.range 360).map fun (m : Nat) => (if (m : Int) = ⌊hue e.1⌋ then
          (if Neighbours n ⌊hue e.1⌋ then e.2 else 0) else 0) + (if Neighbours n m then popBy hue rest m else 0) := by
      apply List.map_congr_left
      intro m _
      rw [hp]
      by_cases hc : ⌊hue e.1⌋ = (m : Int)
      · rw [if_pos hc, if_pos hc.symm, hc]
        split_ifs <;> ring
      · have hc' : ¬ (m : Int) = ⌊hue e.1⌋ := fun h => hc h.symm
        simp only [hc, hc', if_false, zero_add]
    obtain ⟨h0, h1⟩ := hr e.1
    have f0 : 0 ≤ ⌊hue e.1⌋ := Int.floor_nonneg.2 h0
    have f1 : ⌊hue e.1⌋ < 360 := Int.floor_lt.2 (by exact_mod_cast h1)
    rw [hs, List.sum_map_add, ih, sum_indicator _ _ f0, if_pos (by exact_mod_cast f1)]
    simp only [populationNearBy, List.map_cons, List.sum_cons]

theorem popBy_range (hue : Int → ℝ) (entries : List (Int × Int)) (hpos : ∀ e ∈ entries, 0 ≤ e.2) (m : Int) :
    0 ≤ popBy hue entries m ∧ popBy hue entries m ≤ population entries := by
  induction entries with
  | nil => simp [popBy, population]
  | cons e rest ih =>
    obtain ⟨i0, i1⟩ := ih fun x hx => hpos x (List.mem_cons_of_mem _ hx)
    have := hpos e List.mem_cons_self
    simp only [popBy, population, List.map_cons, List.sum_cons] at *
    split <;> omega

theorem populationNearBy_range (hue : Int → ℝ) (entries : List (Int × Int)) (hpos : ∀ e ∈ entries, 0 ≤ e.2) (n : Int) :
    0 ≤ populationNearBy hue entries n ∧ populationNearBy hue entries n ≤ population entries := by
  induction entries with
  | nil => simp [populationNearBy, population]
  | cons e rest ih =>
    obtain ⟨i0, i1⟩ := ih fun x hx => hpos x (List.mem_cons_of_mem _ hx)
    have := hpos e List.mem_cons_self
    simp only [populationNearBy, population, List.map_cons, List.sum_cons] at *
    split <;> omega

/-- A share of the population. -/
theorem is_proportion {a b : Int} (a0 : 0 ≤ a) (ab : a ≤ b) (b0 : 0 < b) (hb : b ≤ 2 ^ 53) :
    ∃ q, Is ((Fl.ofInt a : 𝔻) / Fl.ofInt b) q ∧ |q - (a : ℝ) / b| ≤ ρ ∧ 0 ≤ q ∧ q ≤ 1 := by
  have ia := is_ofInt (L := L) (n := a) (by rw [abs_of_nonneg a0]; omega)
  have ib := is_ofInt (L := L) (n := b) (by rw [abs_of_pos b0]; omega)
  have b0' : (0 : ℝ) < b := by exact_mod_cast b0
  have a0' : (0 : ℝ) ≤ a := by exact_mod_cast a0
  have ab' : (a : ℝ) ≤ b := by exact_mod_cast ab
  have q0 : (0 : ℝ) ≤ a / b := div_nonneg a0' b0'.le
  have q1 : (a : ℝ) / b ≤ 1 := (div_le_one b0').2 ab'
  obtain ⟨r1, r2⟩ := rnd_ok (v := (a : ℝ) / b) (by rw [abs_of_nonneg q0]; linarith)
  exact ⟨_, ia.div ib b0'.ne' r1, r2, rnd_nonneg q0, rep1.rnd_le q1⟩

theorem excited_fold64 (h : Histogram 𝔻) (hs : 0 < h.populationSum) (hs' : h.populationSum ≤ 2 ^ 53)
    (hp : ∀ m : Nat, 0 ≤ h.huePopulation.getD m 0 ∧ h.huePopulation.getD m 0 ≤ h.populationSum) (n : Nat) (hn : n < 360) (hues : List Nat) :
    ∀ (acc : List 𝔻) (k : ℕ) (v S : ℝ), acc.length = 360 → k + hues.length ≤ 360 → Is (acc.getD n 0.0) v → 0 ≤ v → v ≤ 2 * k → |v - S| ≤ 2 * k * ρ →
      ∃ w, Is ((hues.foldl (fun acc hue =>
        spread acc hue (Fl.ofInt (h.huePopulation.getD hue 0) / Fl.ofInt h.populationSum)) acc).getD n 0.0) w ∧
        |w - (S + (((hues.map fun (m : Nat) => if Neighbours n m then h.huePopulation.getD m 0 else 0).sum : Int) : ℝ) / (h.populationSum : ℝ))| ≤ 720 * ρ := by
  have hρ := ρ_pos
  induction hues with
  | nil =>
    intro acc k v S _ hk iv v0 v1 hv
    refine ⟨v, iv, ?_⟩
    simp only [List.map_nil, List.sum_nil, Int.cast_zero, zero_div, add_zero]
    refine hv.trans (mul_le_mul_of_nonneg_right ?_ hρ.le)
    have : (k : ℝ) ≤ 360 := by exact_mod_cast (by simpa using hk : k ≤ 360)
    linarith
  | cons m rest ih =>
    intro acc k v S hl hk iv v0 v1 hv
    rw [List.length_cons] at hk
    have hk' : (k : ℝ) + 1 ≤ 360 := by exact_mod_cast (by omega : k + 1 ≤ 360)
    obtain ⟨q, iq, hq, q0, q1⟩ := is_proportion (L := L) (hp m).1 (hp m).2 hs hs'
    obtain ⟨s1, s2⟩ := spread_any acc m ((Fl.ofInt (h.huePopulation.getD m 0) : 𝔻) / Fl.ofInt h.populationSum) hl
    rw [List.foldl_cons, List.map_cons, List.sum_cons, Int.cast_add, add_div, ← add_assoc]
    have s2 := s2 n hn
    by_cases hc : Neighbours n m
    · rw [if_pos hc] at s2 ⊢
      obtain ⟨r1, r2⟩ := rnd_ok (v := v + q) (by rw [abs_of_nonneg (by linarith)]; linarith)
      have ia := iv.add iq r1
      rw [← s2] at ia
      have r2' := abs_le.1 r2
      have hv' := abs_le.1 hv
      have hq' := abs_le.1 hq
      have hρ1 : ρ ≤ 1 := by unfold ρ; norm_num
      refine ih _ (k + 1) (rnd (v + q)) _ s1 (by omega) ia (rnd_nonneg (by linarith)) ?_ ?_
      · push_cast; linarith
      · push_cast
        rw [abs_le]
        constructor <;> linarith
    · rw [if_neg hc] at s2 ⊢
      rw [← s2] at iv
      rw [Int.cast_zero, zero_div, add_zero]
      refine ih _ (k + 1) v _ s1 (by omega) iv v0 ?_ ?_
      · push_cast; linarith
      · push_cast
        refine hv.trans ?_
        linarith

theorem excited_ok64 (hue : Int → ℝ) (hr : ∀ c, 0 ≤ hue c ∧ hue c < 360) (entries : List (Int × Int)) (hpos : ∀ e ∈ entries, 0 ≤ e.2)
    (hpop : 0 < population entries) (hpop' : population entries ≤ 2 ^ 53) (h : Histogram 𝔻) (hs : h.populationSum = population entries)
    (hl : h.huePopulation.length = 360) (hp : ∀ m : Nat, m < 360 → h.huePopulation.getD m 0 = popBy hue entries m) (n : Nat) (hn : n < 360) :
    ∃ w, Is ((excitedProportions h).getD n 0.0) w ∧ |w - (populationNearBy hue entries n : ℝ) / (population entries : ℝ)| ≤ 720 * ρ := by
  have hall (m : Nat) : 0 ≤ h.huePopulation.getD m 0 ∧ h.huePopulation.getD m 0 ≤ h.populationSum := by
    by_cases hm : m < 360
    · rw [hp m hm, hs]; exact popBy_range hue entries hpos m
    · rw [List.getD_eq_getElem?_getD, List.getElem?_eq_none (by omega), Option.getD_none, hs]; exact ⟨le_rfl, hpop.le⟩
  have i0 : Is (0.0 : 𝔻) 0 := l0'
  have := excited_fold64 h (by rw [hs]; exact hpop) (by rw [hs]; exact hpop') hall n hn (List.range 360) (List.replicate 360 0.0) 0 0 0
    List.length_replicate (by simp) (by rw [List.getD_eq_getElem?_getD, List.getElem?_replicate, if_pos hn, Option.getD_some]; exact i0) le_rfl (by simp) (by simp)
  obtain ⟨w, iw, hw⟩ := this
  refine ⟨w, iw, ?_⟩
  have hm : ((List.range 360).map fun (m : Nat) => if Neighbours n m then h.huePopulation.getD m 0 else 0) =
      (List.range 360).map fun (m : Nat) => if Neighbours n m then popBy hue entries m else 0 := by
    apply List.map_congr_left
    intro m hm
    rw [hp m (List.mem_range.1 hm)]
  rwa [hm, popNearBy_eq hue hr, hs, zero_add] at hw

theorem populationNearBy_mod (hue : Int → ℝ) (entries : List (Int × Int)) (n : Int) :
    populationNearBy hue entries (n % 360) = populationNearBy hue entries n := by
  unfold populationNearBy
  simp only [neighbours_mod]

/-- What is known about the histogram of a population map. -/
structure HistOf (L : Libm) (entries : List (Int × Int)) (h : Histogram (F64 L)) : Prop where
  sum : h.populationSum = population entries
  len : h.huePopulation.length = 360
  pop : ∀ m : Nat, m < 360 → h.huePopulation.getD m 0 = popBy (hueC L) entries m

theorem proportion64 (hS : L.Sound) (hT : L.TempOk) (hZ : L.AtanZero) {entries : List (Int × Int)} (hc : Counts entries) {h : Histogram 𝔻}
    (hh : HistOf L entries h) (c : Int) :
    ∃ w, Is (proportionOf (excitedProportions h) (Hct.fromInt c)) w ∧ |w - shareBy (hueC L) entries c| ≤ 720 * ρ := by
  obtain ⟨i, h0, h1⟩ := hueC_range hS hT hZ c
  have hr : Fl.toI64 (Fl.round (Hct.fromInt c : Hct 𝔻).getHue) = ⌊hueC L c + 1 / 2⌋ := TemperatureCache.place64 ⟨i.1, h0, h1.le⟩
  unfold proportionOf
  rw [hr, sanitize_int_eq]
  have m0 := Int.emod_nonneg ⌊hueC L c + 1 / 2⌋ (by decide : (360:Int) ≠ 0)
  have m1 := Int.emod_lt_of_pos ⌊hueC L c + 1 / 2⌋ (by decide : (0:Int) < 360)
  obtain ⟨w, iw, hw⟩ := excited_ok64 (hueC L) (fun c => (hueC_range hS hT hZ c).2) entries hc.nonneg hc.pos hc.le h hh.sum hh.len hh.pop
    (⌊hueC L c + 1 / 2⌋ % 360).toNat (by omega)
  refine ⟨w, iw, ?_⟩
  rwa [Int.toNat_of_nonneg m0, populationNearBy_mod] at hw

theorem shareBy_range (hue : Int → ℝ) {entries : List (Int × Int)} (hc : Counts entries) (c : Int) : 0 ≤ shareBy hue entries c ∧ shareBy hue entries c ≤ 1 := by
  obtain ⟨h0, h1⟩ := populationNearBy_range hue entries hc.nonneg ⌊hue c + 1 / 2⌋
  have b0 : (0 : ℝ) < population entries := by exact_mod_cast hc.pos
  unfold shareBy
  exact ⟨div_nonneg (by exact_mod_cast h0) b0.le, (div_le_one b0).2 (by exact_mod_cast h1)⟩

end Mcu.Score
