import Verif.Lemmas.F64Temperature

/-! The temperature cache in binary64. -/

namespace Mcu.TemperatureCache

open Mcu.Ieee MathUtils ColorUtils TemperatureSpec Props.Binary64 Lemmas

/-! ### The loop of `get_complement`, for any arithmetic -/

section loop
variable {F : Type} [Fl F] (input : Hct F) (start stop cold range target : F)

/-- The angle of an addend. -/
def angleIn (i : Nat) : F := sanitizeDegreesDouble (start + 1.0 * Fl.ofInt i)

/-- The place on the wheel it stands for. -/
def placeIn (i : Nat) : Nat := toUsize (Fl.round (angleIn start i))

/-- Whether it is looked at. -/
def VisitedIn (i : Nat) : Prop := isBetween (angleIn start i) start stop = true

/-- The colour looked at. -/
def candidateIn (i : Nat) : Hct F := wheelAt input (placeIn start i)

/-- Its error. -/
def errorIn (i : Nat) : F := Fl.abs (target - (rawTemperature (candidateIn input start i) - cold) / range)

theorem complementLoop_step (i : Nat) (rest : List Nat) (e : F) (a : Hct F) :
    complementLoop (wheel input) (temps input) start stop cold range target (i :: rest) e a =
      if isBetween (angleIn start i) start stop = true then
        if placeIn start i < 360 then
          if errorIn input start cold range target i < e then
            complementLoop (wheel input) (temps input) start stop cold range target rest
              (errorIn input start cold range target i) (candidateIn input start i)
          else complementLoop (wheel input) (temps input) start stop cold range target rest e a
        else none
      else complementLoop (wheel input) (temps input) start stop cold range target rest e a := by
  conv_lhs => unfold complementLoop
  simp only
  by_cases hb : isBetween (angleIn start i) start stop = true
  · rw [if_pos hb, show isBetween (sanitizeDegreesDouble (start + 1.0 * Fl.ofInt i)) start stop = true from hb]
    simp only [Bool.not_true, Bool.false_eq_true, if_false]
    rw [show toUsize (Fl.round (sanitizeDegreesDouble (start + 1.0 * Fl.ofInt i))) = placeIn start i from rfl, wheel_get]
    by_cases hlt : placeIn start i < 360
    · rw [if_pos hlt, if_pos hlt]
      have ht : (temps input).lookup (candidateIn input start i).toInt = some (rawTemperature (candidateIn input start i)) := by
        have hm : candidateIn input start i ∈ wheel input ++ [input] := by
          unfold candidateIn
          exact List.mem_append_left _ (wheelAt_mem _ _)
        have := temp_mem hm
        unfold temp at this
        exact this
      simp only [show wheelAt input (placeIn start i : Int) = candidateIn input start i from rfl, ht]
      show (if errorIn input start cold range target i < e then _ else _) = _
      split_ifs <;> rfl
    · rw [if_neg hlt, if_neg hlt]
  · rw [if_neg hb]
    simp only [Bool.not_eq_true] at hb
    rw [show isBetween (sanitizeDegreesDouble (start + 1.0 * Fl.ofInt i)) start stop = false from hb]; rfl

theorem complementLoop_panics (l : List Nat) : ∀ e a,
    complementLoop (wheel input) (temps input) start stop cold range target l e a = none ↔
      ∃ i ∈ l, VisitedIn start stop i ∧ 360 ≤ placeIn start i := by
  induction l with
  | nil => intro e a; simp [complementLoop]
  | cons i rest ih =>
    intro e a
    rw [complementLoop_step]
    by_cases hb : isBetween (angleIn start i) start stop = true
    · rw [if_pos hb]
      by_cases hlt : placeIn start i < 360
      · rw [if_pos hlt]
        have key : (∃ j ∈ i :: rest, VisitedIn start stop j ∧ 360 ≤ placeIn start j) ↔
            ∃ j ∈ rest, VisitedIn start stop j ∧ 360 ≤ placeIn start j := by
          constructor
          · rintro ⟨j, hj, hv⟩
            rcases List.mem_cons.mp hj with rfl | hj
            · omega
            · exact ⟨j, hj, hv⟩
          · rintro ⟨j, hj, hv⟩; exact ⟨j, List.mem_cons_of_mem _ hj, hv⟩
        rw [key]
        split_ifs
        · exact ih _ _
        · exact ih _ _
      · rw [if_neg hlt]
        exact ⟨fun _ => ⟨i, List.mem_cons_self, hb, not_lt.mp hlt⟩, fun _ => rfl⟩
    · rw [if_neg hb, ih]
      constructor
      · rintro ⟨j, hj, hv⟩; exact ⟨j, List.mem_cons_of_mem _ hj, hv⟩
      · rintro ⟨j, hj, hv⟩
        rcases List.mem_cons.mp hj with rfl | hj
        · exact absurd hv.1 hb
        · exact ⟨j, hj, hv⟩

/-- The answer is the first of the colours looked at with the smallest error, if errors can be compared by real values. -/
theorem complementLoop_first (V : F → ℝ → Prop) (hV : ∀ x y a b, V x a → V y b → (x < y ↔ a < b)) (err : Nat → ℝ)
    (herr : ∀ i, V (errorIn input start cold range target i) (err i)) (l : List Nat) : ∀ e ev a r, V e ev →
    complementLoop (wheel input) (temps input) start stop cold range target l e a = some r →
      (r = a ∧ ∀ i ∈ l, VisitedIn start stop i → ev ≤ err i) ∨
      ∃ l1 i l2, l = l1 ++ i :: l2 ∧ VisitedIn start stop i ∧ r = candidateIn input start i ∧ err i < ev ∧
        (∀ j ∈ l1, VisitedIn start stop j → err i < err j) ∧ (∀ j ∈ l2, VisitedIn start stop j → err i ≤ err j) := by
  induction l with
  | nil =>
    intro e ev a r _ h
    exact Or.inl ⟨(Option.some.inj h).symm, fun i hi => absurd hi List.not_mem_nil⟩
  | cons i rest ih =>
    intro e ev a r hev h
    rw [complementLoop_step] at h
    by_cases hb : isBetween (angleIn start i) start stop = true
    · rw [if_pos hb] at h
      by_cases hlt : placeIn start i < 360
      · rw [if_pos hlt] at h
        by_cases he : errorIn input start cold range target i < e
        · rw [if_pos he] at h
          rw [hV _ _ _ _ (herr i) hev] at he
          rcases ih _ _ _ _ (herr i) h with ⟨h1, h2⟩ | ⟨l1, k, l2, h1, h2, h3, h4, h5, h6⟩
          · exact Or.inr ⟨[], i, rest, rfl, hb, h1, he, fun j hj => absurd hj List.not_mem_nil, h2⟩
          · refine Or.inr ⟨i :: l1, k, l2, by rw [h1]; rfl, h2, h3, h4.trans he, ?_, h6⟩
            intro j hj hv
            rcases List.mem_cons.mp hj with rfl | hj
            · exact h4
            · exact h5 j hj hv
        · rw [if_neg he] at h
          rw [hV _ _ _ _ (herr i) hev] at he
          rcases ih _ _ _ _ hev h with ⟨h1, h2⟩ | ⟨l1, k, l2, h1, h2, h3, h4, h5, h6⟩
          · refine Or.inl ⟨h1, fun j hj hv => ?_⟩
            rcases List.mem_cons.mp hj with rfl | hj
            · exact not_lt.mp he
            · exact h2 j hj hv
          · refine Or.inr ⟨i :: l1, k, l2, by rw [h1]; rfl, h2, h3, h4, ?_, h6⟩
            intro j hj hv
            rcases List.mem_cons.mp hj with rfl | hj
            · exact lt_of_lt_of_le h4 (not_lt.mp he)
            · exact h5 j hj hv
      · rw [if_neg hlt] at h; cases h
    · rw [if_neg hb] at h
      rcases ih _ _ _ _ hev h with ⟨h1, h2⟩ | ⟨l1, k, l2, h1, h2, h3, h4, h5, h6⟩
      · refine Or.inl ⟨h1, fun j hj hv => ?_⟩
        rcases List.mem_cons.mp hj with rfl | hj
        · exact absurd hv hb
        · exact h2 j hj hv
      · refine Or.inr ⟨i :: l1, k, l2, by rw [h1]; rfl, h2, h3, h4, ?_, h6⟩
        intro j hj hv
        rcases List.mem_cons.mp hj with rfl | hj
        · exact absurd hv hb
        · exact h5 j hj hv

end loop

/-! ### Sorting and relative temperatures -/

variable {L : Libm}

local notation "𝔻" => F64 L

/-- The value of the temperature of a colour. -/
noncomputable def tv (h : Hct 𝔻) : ℝ := val (rawTemperature h)

theorem is_tv (hS : L.Sound) (h : Hct 𝔻) : Is (rawTemperature h) (tv h) ∧ |tv h| ≤ 10 ^ 7 := by
  obtain ⟨v, iv, hv⟩ := temp_fin hS h.toInt
  have e : tv h = v := iv.2
  rw [e]
  exact ⟨iv, hv⟩

theorem byTemp_sorted64 (hS : L.Sound) (input : Hct 𝔻) : (byTemp input).Pairwise fun a b => tv a ≤ tv b := by
  have e : byTemp input = (wheel input ++ [input]).mergeSort (fun a b => decide (tv a ≤ tv b)) := by
    have := List.map_mergeSort (r := tempLe (temps input))
      (s := fun a b => decide (tv a ≤ tv b)) (f := id) (l := wheel input ++ [input]) (by
      intro a ha b hb
      have h1 := temp_mem ha
      have h2 := temp_mem hb
      unfold temp at h1 h2
      simp only [tempLe, h1, h2, id]
      rw [← decide_not]
      apply decide_eq_decide.mpr
      rw [(is_tv hS b).1.lt_iff (is_tv hS a).1]
      exact not_lt)
    simpa [byTemp] using this
  rw [e]
  have := List.pairwise_mergeSort (le := fun a b : Hct 𝔻 => decide (tv a ≤ tv b))
    (fun a b c h1 h2 => by
      rw [decide_eq_true_iff] at *
      exact le_trans h1 h2)
    (fun a b => by
      rw [Bool.or_eq_true, decide_eq_true_iff, decide_eq_true_iff]
      exact le_total _ _) (wheel input ++ [input])
  exact this.imp fun h => of_decide_eq_true h

theorem coldest64 (hS : L.Sound) (input : Hct 𝔻) : ∃ c, coldest input = some c ∧ c ∈ wheel input ++ [input] ∧
    ∀ h ∈ wheel input ++ [input], tv c ≤ tv h := by
  have hs := byTemp_sorted64 hS input
  have hp := byTemp_perm input
  unfold coldest
  cases hb : byTemp input with
  | nil => exact absurd hb (byTemp_ne' input)
  | cons c rest =>
    rw [hb] at hs hp
    refine ⟨c, rfl, hp.subset (List.mem_cons_self), fun h hh => ?_⟩
    rcases List.mem_cons.mp (hp.symm.subset hh) with rfl | hr
    · exact le_refl _
    · exact (List.pairwise_cons.mp hs).1 h hr

theorem warmest64 (hS : L.Sound) (input : Hct 𝔻) : ∃ w, warmest input = some w ∧ w ∈ wheel input ++ [input] ∧
    ∀ h ∈ wheel input ++ [input], tv h ≤ tv w := by
  have hs := byTemp_sorted64 hS input
  have hp := byTemp_perm input
  unfold warmest
  rcases List.eq_nil_or_concat (byTemp input) with hb | ⟨l, w, hb⟩
  · exact absurd hb (byTemp_ne' input)
  · rw [List.concat_eq_append] at hb
    rw [hb] at hs hp ⊢
    refine ⟨w, by simp, hp.subset (by simp), fun h hh => ?_⟩
    rcases List.mem_append.mp (hp.symm.subset hh) with hl | hr
    · exact (List.pairwise_append.mp hs).2.2 h hl w (by simp)
    · rw [List.mem_singleton.mp hr]

/-- Every double is a multiple of the smallest one. -/
theorem rep_scale {a : ℝ} (ha : Rep a) : ∃ k : ℤ, a = k * (2 : ℝ) ^ (-1074 : ℤ) := by
  obtain ⟨m, e, -, he, rfl⟩ := ha
  refine ⟨m * 2 ^ (e + 1074).toNat, ?_⟩
  have : (2 : ℝ) ^ e = 2 ^ (e + 1074).toNat * (2 : ℝ) ^ (-1074 : ℤ) := by
    rw [← zpow_natCast, ← zpow_add₀ (by norm_num)]
    congr 1
    omega
  rw [this]
  push_cast
  ring

/-- The difference of two different doubles does not round to 0. -/
theorem rnd_sub_pos {a b : ℝ} (ha : Rep a) (hb : Rep b) (h : a < b) : 0 < rnd (b - a) := by
  have two : ∀ k : ℤ, (0 : ℝ) < 2 ^ k := two_zpow_pos
  obtain ⟨k, hk⟩ := rep_scale ha
  obtain ⟨j, hj⟩ := rep_scale hb
  rw [hk, hj] at h ⊢
  have hkj : k < j := by
    have := lt_of_mul_lt_mul_right h (two _).le
    exact_mod_cast this
  have h1 : (2 : ℝ) ^ (-1074 : ℤ) ≤ j * (2 : ℝ) ^ (-1074 : ℤ) - k * (2 : ℝ) ^ (-1074 : ℤ) := by
    rw [← sub_mul]
    have : (1 : ℝ) ≤ j - k := by
      have : k + 1 ≤ j := hkj
      have : ((k + 1 : ℤ) : ℝ) ≤ j := by exact_mod_cast this
      push_cast at this
      linarith
    exact le_mul_of_one_le_left (two _).le this
  exact (two _).trans_le ((rep_zpow le_rfl).le_rnd h1)

/-- The difference of two doubles is rounded with a small relative error, however small it is. -/
theorem rnd_sub_rel {a b : ℝ} (ha : Rep a) (hb : Rep b) (h : a ≤ b) : |rnd (b - a) - (b - a)| ≤ (b - a) * (1 / 10 ^ 15) := by
  have two : ∀ k : ℤ, (0 : ℝ) < 2 ^ k := two_zpow_pos
  by_cases hsmall : b - a < 2 ^ (-1021 : ℤ)
  · have hrep : Rep (b - a) := by
      obtain ⟨k, hk⟩ := rep_scale ha
      obtain ⟨j, hj⟩ := rep_scale hb
      rw [hk, hj, ← sub_mul] at hsmall
      refine ⟨j - k, -1074, ?_, le_rfl, by rw [hk, hj]; push_cast; ring⟩
      have h0 : (0 : ℝ) ≤ j - k := by
        rw [hk, hj, ← sub_nonneg, ← sub_mul] at h
        exact nonneg_of_mul_nonneg_left h (two _)
      have e : (2 : ℝ) ^ (-1021 : ℤ) = 2 ^ (53 : ℤ) * 2 ^ (-1074 : ℤ) := by rw [← zpow_add₀ (by norm_num)]; norm_num
      rw [e] at hsmall
      have h1 := lt_of_mul_lt_mul_right hsmall (two _).le
      have h0 : ((0 : ℤ) : ℝ) ≤ ((j - k : ℤ) : ℝ) := by push_cast; exact h0
      have h0 : 0 ≤ j - k := by exact_mod_cast h0
      have h1 : ((j - k : ℤ) : ℝ) < ((2 ^ 53 : ℤ) : ℝ) := by
        rw [zpow_ofNat] at h1
        push_cast; norm_num at h1 ⊢; exact h1
      rw [abs_of_nonneg h0]
      exact_mod_cast h1
    rw [hrep.rnd_eq, sub_self, abs_zero]
    exact mul_nonneg (by linarith) (by norm_num)
  · push Not at hsmall
    refine (rnd_error _).trans ?_
    rw [abs_of_nonneg (by linarith)]
    have h1 : (2 : ℝ) ^ (-1075 : ℤ) = 2 ^ (-1021 : ℤ) * 2 ^ (-54 : ℤ) := by rw [← zpow_add₀ (by norm_num)]; norm_num
    rw [h1]
    have h2 : (2 : ℝ) ^ (-1021 : ℤ) * 2 ^ (-54 : ℤ) ≤ (b - a) * 2 ^ (-54 : ℤ) :=
      mul_le_mul_of_nonneg_right hsmall (two _).le
    have h3 : (2 : ℝ) ^ (-53 : ℤ) + 2 ^ (-54 : ℤ) ≤ 1 / 10 ^ 15 := by norm_num
    have h4 := mul_le_mul_of_nonneg_left h3 (show 0 ≤ b - a by linarith)
    rw [mul_add] at h4
    exact (add_le_add le_rfl h2).trans h4

/-- The relative temperature of a colour between the extremes `c` and `w`, rounded. -/
noncomputable def rel64 (c w : Hct 𝔻) (h : Hct 𝔻) : ℝ :=
  if tv w = tv c then 1 / 2 else rnd (rnd (tv h - tv c) / rnd (tv w - tv c))

theorem diff64 (hS : L.Sound) (a b : Hct 𝔻) : Is (rawTemperature a - rawTemperature b) (rnd (tv a - tv b)) := by
  obtain ⟨ia, ha⟩ := is_tv hS a
  obtain ⟨ib, hb⟩ := is_tv hS b
  refine ia.sub ib (rnd_huge ?_)
  refine (abs_sub _ _).trans ?_
  norm_num at *; linarith

theorem rnd_range {a b : ℝ} (h0 : 0 ≤ a) (h : a ≤ b) (hb : 0 < b) : 0 ≤ rnd (a / b) ∧ rnd (a / b) ≤ 1 ∧ |rnd (a / b)| < 2 ^ 1024 := by
  have h1 : 0 ≤ a / b := by positivity
  have h2 : a / b ≤ 1 := (div_le_one hb).2 h
  refine ⟨rnd_nonneg h1, rep1.rnd_le h2, rnd_huge ?_⟩
  rw [abs_of_nonneg h1]; exact h2.trans (by norm_num)

theorem rel64_range (c w h : Hct 𝔻) (h1 : tv c ≤ tv h) (h2 : tv h ≤ tv w) : 0 ≤ rel64 c w h ∧ rel64 c w h ≤ 1 := by
  unfold rel64
  split
  · norm_num
  · next hne =>
    have a0 : 0 ≤ rnd (tv h - tv c) := rnd_nonneg (by linarith)
    have a1 : rnd (tv h - tv c) ≤ rnd (tv w - tv c) := rnd_mono (by linarith)
    rcases (a0.trans a1).eq_or_lt with e | e
    · rw [← e]; simp [rnd_zero]
    · exact ⟨(rnd_range a0 a1 e).1, (rnd_range a0 a1 e).2.1⟩

theorem rel64_mono (c w a b : Hct 𝔻) (h0 : tv c ≤ tv w) (h : tv a ≤ tv b) : rel64 c w a ≤ rel64 c w b := by
  unfold rel64
  split
  · exact le_rfl
  · exact rnd_mono (div_le_div_of_nonneg_right (rnd_mono (by linarith)) (rnd_nonneg (by linarith)))

theorem rel64_near (hS : L.Sound) (c w h : Hct 𝔻) (h1 : tv c ≤ tv h) (h2 : tv h ≤ tv w) (hne : tv w ≠ tv c) :
    |rel64 c w h - (tv h - tv c) / (tv w - tv c)| ≤ 2 / 10 ^ 12 := by
  have hlt : tv c < tv w := lt_of_le_of_ne (h1.trans h2) (Ne.symm hne)
  have rc := (is_tv hS c).1.rep
  have e1 := abs_le.1 (rnd_sub_rel rc (is_tv hS h).1.rep h1)
  have e2 := abs_le.1 (rnd_sub_rel rc (is_tv hS w).1.rep hlt.le)
  have hpos := rnd_sub_pos rc (is_tv hS w).1.rep hlt
  have a1 : rnd (tv h - tv c) ≤ rnd (tv w - tv c) := rnd_mono (by linarith)
  have a0 : 0 ≤ rnd (tv h - tv c) := rnd_nonneg (by linarith)
  unfold rel64
  rw [if_neg hne]
  generalize rnd (tv h - tv c) = D at *
  generalize rnd (tv w - tv c) = R at *
  have hd0 : 0 ≤ tv h - tv c := by linarith
  have hr0 : 0 < tv w - tv c := by linarith
  have hdr : tv h - tv c ≤ tv w - tv c := by linarith
  generalize tv h - tv c = d at *
  generalize tv w - tv c = r at *
  have q0 : 0 ≤ D / R := by positivity
  have q1 : D / R ≤ 1 := (div_le_one hpos).2 a1
  obtain ⟨-, o2⟩ := rnd_ok (v := D / R) (by rw [abs_of_nonneg q0]; linarith)
  rw [show ρ = 1 / 10 ^ 12 from rfl] at o2
  have hq : |D / R - d / r| ≤ 1 / 10 ^ 12 := by
    rw [div_sub_div _ _ hpos.ne' hr0.ne', abs_div, abs_of_pos (mul_pos hpos hr0), div_le_iff₀ (mul_pos hpos hr0)]
    have hR : r * (1 / 2) ≤ R := by norm_num at *; linarith
    have k1 : |D - d| ≤ d * (1 / 10 ^ 15) := abs_le.2 e1
    have k2 : |r - R| ≤ r * (1 / 10 ^ 15) := by rw [abs_sub_comm]; exact abs_le.2 e2
    have hz : D * r - R * d = (D - d) * r + d * (r - R) := by ring
    rw [hz]
    refine (abs_add_le _ _).trans ?_
    rw [abs_mul, abs_mul, abs_of_pos hr0, abs_of_nonneg hd0]
    have m1 : |D - d| * r ≤ d * (1 / 10 ^ 15) * r := mul_le_mul_of_nonneg_right k1 hr0.le
    have m2 : d * |r - R| ≤ d * (r * (1 / 10 ^ 15)) := mul_le_mul_of_nonneg_left k2 hd0
    have m3 : d * r ≤ r * r := mul_le_mul_of_nonneg_right hdr hr0.le
    have m4 : r * (1 / 2) * r ≤ R * r := mul_le_mul_of_nonneg_right hR hr0.le
    norm_num at *
    nlinarith
  have := abs_le.1 o2
  have := abs_le.1 hq
  rw [abs_le]
  generalize rnd (D / R) = z at *
  generalize D / R = q at *
  generalize d / r = q' at *
  norm_num at *
  constructor <;> linarith

/-- The quotient computed by the cache. -/
theorem is_rel64 (hS : L.Sound) (c w h : Hct 𝔻) (h1 : tv c ≤ tv h) (h2 : tv h ≤ tv w) :
    Is (if rawTemperature w - rawTemperature c == (0.0 : 𝔻) then 0.5
      else (rawTemperature h - rawTemperature c) / (rawTemperature w - rawTemperature c)) (rel64 c w h) := by
  have dw := diff64 hS w c
  have dh := diff64 hS h c
  unfold rel64
  by_cases e : tv w = tv c
  · rw [if_pos ((dw.beq_iff l0).2 (by rw [e, sub_self, rnd_zero])), if_pos e]
    exact Props.Binary64.lhalf
  · have hpos : 0 < rnd (tv w - tv c) :=
      rnd_sub_pos (is_tv hS c).1.rep (is_tv hS w).1.rep (lt_of_le_of_ne (h1.trans h2) (Ne.symm e))
    rw [if_neg (fun hh => hpos.ne' ((dw.beq_iff l0).1 hh)), if_neg e]
    exact dh.div dw hpos.ne' (rnd_range (rnd_nonneg (by linarith)) (rnd_mono (by linarith)) hpos).2.2

theorem relative_any {F : Type} [Fl F] {input c w h : Hct F} (hc : coldest input = some c) (hw : warmest input = some w)
    (hcm : c ∈ wheel input ++ [input]) (hwm : w ∈ wheel input ++ [input]) (hh : h ∈ wheel input ++ [input]) :
    relative input h = some (if rawTemperature w - rawTemperature c == (0.0 : F) then 0.5
      else (rawTemperature h - rawTemperature c) / (rawTemperature w - rawTemperature c)) := by
  unfold relative
  simp only [hc, hw, temp_mem hcm, temp_mem hwm, temp_mem hh, Option.bind_eq_bind, Option.bind_some]
  split <;> rfl

theorem inputRelative_any {F : Type} [Fl F] {input c w : Hct F} (hc : coldest input = some c) (hw : warmest input = some w)
    (hcm : c ∈ wheel input ++ [input]) (hwm : w ∈ wheel input ++ [input]) :
    inputRelative input = some (if rawTemperature w - rawTemperature c == (0.0 : F) then 0.5
      else (rawTemperature input - rawTemperature c) / (rawTemperature w - rawTemperature c)) := by
  unfold inputRelative
  have hi : input ∈ wheel input ++ [input] := by simp
  simp only [hc, hw, temp_mem hcm, temp_mem hwm, temp_mem hi, Option.bind_eq_bind, Option.bind_some]
  rfl

/-! ### Rounding hues, halving counts -/

theorem place64 {x : 𝔻} (hx : HueIn x) : Fl.toI64 (Fl.round x) = ⌊val x + 1 / 2⌋ := by
  obtain ⟨f, h0, h1⟩ := hx
  have hr := round64 (is_of x f) (by rw [abs_of_nonneg h0]; linarith)
  rw [hr.toI64]
  have e : realRound (val x) = ((⌊val x + 1 / 2⌋ : ℤ) : ℝ) := if_pos h0
  rw [e, realTrunc_intCast, satI64_of_mem]
  have a0 : 0 ≤ ⌊val x + 1 / 2⌋ := Int.floor_nonneg.mpr (by linarith)
  have a1 : ⌊val x + 1 / 2⌋ < 361 := Int.floor_lt.mpr (by push_cast; linarith)
  omega

theorem half64 (n : ℤ) (h : |n| < 2 ^ 53) : Fl.toI64 (Fl.floor ((Fl.ofInt n : 𝔻) / 2.0)) = n / 2 := by
  have h2 : Is (2.0 : 𝔻) 2 := by simpa using lit (L := L) 20 1 true 2 (by norm_num) (by norm_num)
  have hn := is_ofInt (L := L) h.le
  have hrep : Rep ((n : ℝ) / 2) := ⟨n, -1, h, by norm_num, by rw [zpow_neg_one]; ring⟩
  have hbig : |(n : ℝ) / 2| < 2 ^ 1024 := by
    have : |(n : ℝ)| < 2 ^ 53 := by exact_mod_cast h
    have h3 : (2 : ℝ) ^ 53 ≤ 2 ^ 1024 := pow_le_pow_right₀ (by norm_num) (by norm_num)
    refine lt_of_lt_of_le (lt_of_le_of_lt ?_ this) h3
    rw [abs_div, abs_of_pos (show (0 : ℝ) < 2 by norm_num)]
    exact div_le_self (abs_nonneg _) (by norm_num)
  have hd := hn.div h2 (by norm_num) (by rw [hrep.rnd_eq]; exact hbig)
  rw [hrep.rnd_eq] at hd
  have hf : ⌊(n : ℝ) / 2⌋ = n / 2 := by
    have := Int.floor_div_natCast (n : ℝ) 2
    rw [Int.floor_intCast] at this
    exact_mod_cast this
  have h' := abs_lt.1 h
  have hb : |n / 2| ≤ 2 ^ 53 := by rw [abs_le]; constructor <;> omega
  have := is_toInteger (L := L) (fun v => ⌊v⌋) (by simp) _ hd.1 (n / 2) (by
    show ⌊val ((Fl.ofInt n : 𝔻) / 2.0)⌋ = n / 2
    rw [show val ((Fl.ofInt n : 𝔻) / 2.0) = _ from hd.2]; exact hf) hb
  change Is (Fl.floor ((Fl.ofInt n : 𝔻) / 2.0)) _ at this
  rw [this.toI64, realTrunc_intCast, satI64_of_mem (by omega)]

end Mcu.TemperatureCache
