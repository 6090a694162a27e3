import Verif.Props.Palettes

/-! Property C35 for core palettes. -/

namespace Mcu.Props

open Lemmas

/-- A core palette made from a colour. -/
def MadeCore (p : CorePalette ℝ) : Prop := ∃ argb, p = CorePalette.of argb ∨ p = CorePalette.contentOf argb

theorem madeCore_kind {p : CorePalette ℝ} (h : MadeCore p) : p.primary.isFromCache = false ∧
    p.secondary.isFromCache = false ∧ p.tertiary.isFromCache = false ∧ p.neutral.isFromCache = false ∧
    p.neutralVariant.isFromCache = false ∧ p.error.isFromCache = false := by
  obtain ⟨argb, rfl | rfl⟩ := h <;> exact ⟨rfl, rfl, rfl, rfl, rfl, rfl⟩

/-- C35 (partial): among core palettes made from colours equality is reflexive, symmetric and transitive, and equal
ones feed the same data to the hasher.  What is missing: core palettes rebuilt from lists of colours, for which it is
false (`c35_core_violated`). -/
theorem c35_core_partial (p q r : CorePalette ℝ) (hp : MadeCore p) (hq : MadeCore q) (hr : MadeCore r) :
    p.eq p = true ∧ (p.eq q = true → q.eq p = true) ∧ (p.eq q = true → q.eq r = true → p.eq r = true) ∧
    (p.eq q = true → p.hashInput = q.hashInput) := by
  obtain ⟨p1, p2, p3, p4, p5, p6⟩ := madeCore_kind hp
  obtain ⟨q1, q2, q3, q4, q5, q6⟩ := madeCore_kind hq
  obtain ⟨r1, r2, r3, r4, r5, r6⟩ := madeCore_kind hr
  have k1 := c35_same_kind_partial p.primary q.primary r.primary (p1.trans q1.symm) (q1.trans r1.symm)
  have k2 := c35_same_kind_partial p.secondary q.secondary r.secondary (p2.trans q2.symm) (q2.trans r2.symm)
  have k3 := c35_same_kind_partial p.tertiary q.tertiary r.tertiary (p3.trans q3.symm) (q3.trans r3.symm)
  have k4 := c35_same_kind_partial p.neutral q.neutral r.neutral (p4.trans q4.symm) (q4.trans r4.symm)
  have k5 := c35_same_kind_partial p.neutralVariant q.neutralVariant r.neutralVariant (p5.trans q5.symm) (q5.trans r5.symm)
  have k6 := c35_same_kind_partial p.error q.error r.error (p6.trans q6.symm) (q6.trans r6.symm)
  have s1 := c35_refl_symm_partial p.primary q.primary
  have s2 := c35_refl_symm_partial p.secondary q.secondary
  have s3 := c35_refl_symm_partial p.tertiary q.tertiary
  have s4 := c35_refl_symm_partial p.neutral q.neutral
  have s5 := c35_refl_symm_partial p.neutralVariant q.neutralVariant
  have s6 := c35_refl_symm_partial p.error q.error
  simp only [CorePalette.eq, CorePalette.hashInput, Bool.and_eq_true]
  refine ⟨⟨⟨⟨⟨⟨s1.1, s2.1⟩, s3.1⟩, s4.1⟩, s5.1⟩, s6.1⟩, ?_, ?_, ?_⟩
  · rintro ⟨⟨⟨⟨⟨a, b⟩, c⟩, d⟩, e⟩, f⟩
    exact ⟨⟨⟨⟨⟨s1.2 a, s2.2 b⟩, s3.2 c⟩, s4.2 d⟩, s5.2 e⟩, s6.2 f⟩
  · rintro ⟨⟨⟨⟨⟨a, b⟩, c⟩, d⟩, e⟩, f⟩ ⟨⟨⟨⟨⟨a', b'⟩, c'⟩, d'⟩, e'⟩, f'⟩
    exact ⟨⟨⟨⟨⟨k1.1 a a', k2.1 b b'⟩, k3.1 c c'⟩, k4.1 d d'⟩, k5.1 e e'⟩, k6.1 f f'⟩
  · rintro ⟨⟨⟨⟨⟨a, b⟩, c⟩, d⟩, e⟩, f⟩
    rw [k1.2 a, k2.2 b, k3.2 c, k4.2 d, k5.2 e, k6.2 f]

example : MadeCore (CorePalette.of 0xFF4285F4) ∧ MadeCore (CorePalette.contentOf 0xFF4285F4) :=
  ⟨⟨_, .inl rfl⟩, ⟨_, .inr rfl⟩⟩

/-- What equality of core palettes made from two colours means: same hue and, up to the minimum of 48, same chroma. -/
theorem c35_core_characterisation (a b : Int) :
    (CorePalette.of a : CorePalette ℝ).eq (CorePalette.of b) = true ↔
      (Cam16.fromInt a : Cam16 ℝ).hue = (Cam16.fromInt b : Cam16 ℝ).hue ∧
      max 48 (Cam16.fromInt a : Cam16 ℝ).chroma = max 48 (Cam16.fromInt b : Cam16 ℝ).chroma := by
  simp only [CorePalette.eq, Bool.and_eq_true, c35_characterisation]
  simp only [CorePalette.of, CorePalette.ofHueChroma, CorePalette.defaultError, TonalPalette.of, and_self, if_true, and_true]
  have e : (48.0 : ℝ) = 48 := by norm_num
  rw [fl_fmax, fl_fmax, e]
  constructor
  · rintro ⟨⟨⟨⟨h, -⟩, -⟩, -⟩, -⟩; exact h
  · rintro ⟨h, h'⟩; simp [h, h']

theorem fromList_kind {colors : List Int} {p : TonalPalette ℝ} (h : TonalPalette.fromList colors = some p) :
    p.isFromCache = true ∧ p.getAsList.1 = colors := by
  have hl := c34_round_trip colors p h []
  refine ⟨?_, hl⟩
  simp only [TonalPalette.fromList] at h
  split at h
  · cases h; rfl
  · cases h

/-- C35 is violated for every core palette made from a colour: rebuilt from its own list of colours it is equal to
what it was, but it feeds different data to the hasher. -/
theorem c35_core_violated (p : CorePalette ℝ) (hp : MadeCore p) : ∃ q : CorePalette ℝ,
    CorePalette.fromList p.asList.1 = some q ∧ p.eq q = true ∧ p.hashInput ≠ q.hashInput := by
  obtain ⟨p1, p2, p3, p4, p5, p6⟩ := madeCore_kind hp
  have perr : p.error = CorePalette.defaultError := by obtain ⟨argb, rfl | rfl⟩ := hp <;> rfl
  obtain ⟨q, hq, -⟩ := c34_core_round_trip p
  refine ⟨q, hq, ?_⟩
  have hlen : p.asList.1.length = CorePalette.size * TonalPalette.commonSize := by
    simp only [CorePalette.asList, List.length_append, getAsList_length]; rfl
  simp only [CorePalette.fromList, if_pos hlen, Option.bind_eq_bind, Option.bind_eq_some_iff] at hq
  obtain ⟨a, ha, b, hb, c, hc, d, hd, e, he, hq⟩ := hq
  cases hq
  have l1 := getAsList_length p.primary
  have l2 := getAsList_length p.secondary
  have l3 := getAsList_length p.tertiary
  have l4 := getAsList_length p.neutral
  have l5 := getAsList_length p.neutralVariant
  have ha := fromList_kind ha
  have hb := fromList_kind hb
  have hc := fromList_kind hc
  have hd := fromList_kind hd
  have he := fromList_kind he
  have part (x y z : List Int) (k : Nat) (hx : x.length = k * 13) (hy : y.length = 13) :
      CorePalette.getPartition (x ++ y ++ z) k TonalPalette.commonSize = y := by
    have : TonalPalette.commonSize = 13 := rfl
    rw [CorePalette.getPartition, this, List.append_assoc, ← hx, List.drop_left, ← hy, List.take_left]
  simp only [CorePalette.asList] at ha hb hc hd he
  have e1 := part [] p.primary.getAsList.1 (p.secondary.getAsList.1 ++ (p.tertiary.getAsList.1 ++ (p.neutral.getAsList.1 ++
    p.neutralVariant.getAsList.1))) 0 rfl l1
  have e2 := part p.primary.getAsList.1 p.secondary.getAsList.1 (p.tertiary.getAsList.1 ++ (p.neutral.getAsList.1 ++
    p.neutralVariant.getAsList.1)) 1 (by rw [l1]) l2
  have e3 := part (p.primary.getAsList.1 ++ p.secondary.getAsList.1) p.tertiary.getAsList.1 (p.neutral.getAsList.1 ++
    p.neutralVariant.getAsList.1) 2 (by rw [List.length_append, l1, l2]) l3
  have e4 := part (p.primary.getAsList.1 ++ p.secondary.getAsList.1 ++ p.tertiary.getAsList.1) p.neutral.getAsList.1
    p.neutralVariant.getAsList.1 3 (by rw [List.length_append, List.length_append, l1, l2, l3]) l4
  have e5 := part (p.primary.getAsList.1 ++ p.secondary.getAsList.1 ++ p.tertiary.getAsList.1 ++ p.neutral.getAsList.1)
    p.neutralVariant.getAsList.1 [] 4
    (by rw [List.length_append, List.length_append, List.length_append, l1, l2, l3, l4]) l5
  simp only [List.append_assoc, List.nil_append, List.append_nil] at e1 e2 e3 e4 e5 ha hb hc hd he
  rw [e1] at ha
  rw [e2] at hb
  rw [e3] at hc
  rw [e4] at hd
  rw [e5] at he
  constructor
  · simp only [CorePalette.eq, Bool.and_eq_true, c35_characterisation]
    rw [if_neg (by simp [ha.1]), if_neg (by simp [hb.1]), if_neg (by simp [hc.1]), if_neg (by simp [hd.1]),
      if_neg (by simp [he.1]), perr]
    refine ⟨⟨⟨⟨⟨ha.2.symm, hb.2.symm⟩, hc.2.symm⟩, hd.2.symm⟩, he.2.symm⟩, ?_⟩
    rw [if_pos ⟨rfl, rfl⟩]
    exact ⟨rfl, rfl⟩
  · intro h
    have := congrArg List.length h
    simp [CorePalette.hashInput, TonalPalette.hashInput, p1, p2, p3, p4, p5, ha.1, hb.1, hc.1, hd.1, he.1,
      getAsList_length, perr] at this
    omega

end Mcu.Props
