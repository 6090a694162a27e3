import Verif.Lemmas.F64ScoreRank

/-! What scoring returns in IEEE-754 binary64. -/

namespace Mcu.Score

open Mcu.Ieee Mcu.Lemmas Mcu.Props Mcu.Props.Binary64 MathUtils Mcu.Spec

variable {L : Libm}

local notation "𝔻" => F64 L

/-- The computed hue difference of two colours is at least `d` degrees. -/
def FarC (L : Libm) (d : Int) (a b : Int) : Prop := ¬ Close d (Hct.fromInt a : Hct (F64 L)) (Hct.fromInt b)

open Classical in
theorem pickAll_spacedBy (d : Int) (f : Int → 𝔻) (ranked : List Int) :
    pickAll d (ranked.map fun c => (⟨Hct.fromInt c, f c⟩ : ScoredHct 𝔻)) [] = (spacedBy (FarC L d) ranked).map Hct.fromInt := by
  have : ∀ (l : List Int) (taken : List Int),
      (l.map (Hct.fromInt : Int → Hct 𝔻)).foldl (pick d) (taken.map Hct.fromInt) =
      (l.foldl (fun taken c => if ∀ t ∈ taken, FarC L d c t then taken ++ [c] else taken) taken).map Hct.fromInt := by
    intro l
    induction l with
    | nil => intro taken; rfl
    | cons c rest ih =>
      intro taken
      rw [List.map_cons, List.foldl_cons, List.foldl_cons]
      have hp : pick d (taken.map (Hct.fromInt : Int → Hct 𝔻)) (Hct.fromInt c) =
          (if ∀ t ∈ taken, FarC L d c t then taken ++ [c] else taken).map Hct.fromInt := by
        unfold pick
        by_cases h : ∀ t ∈ taken, FarC L d c t
        · rw [if_pos h, if_neg]
          · simp
          · rw [duplicate_close]
            rintro ⟨x, hx, hc⟩
            obtain ⟨t, ht, rfl⟩ := List.mem_map.1 hx
            exact h t ht hc
        · rw [if_neg h, if_pos]
          rw [duplicate_close]
          push Not at h
          obtain ⟨t, ht, hc⟩ := h
          exact ⟨_, List.mem_map_of_mem ht, not_not.1 hc⟩
      rw [hp, ih]
  unfold pickAll
  rw [List.map_map]
  exact this ranked []

theorem map_argb (l : List Int) : (l.map (Hct.fromInt : Int → Hct 𝔻)).map Hct.toInt = l := by
  rw [List.map_map]; exact List.map_id _

theorem spacedBy_ok (L : Libm) (d : Int) (ranked : List Int) :
    (spacedBy (FarC L d) ranked).Sublist ranked ∧ (spacedBy (FarC L d) ranked).Pairwise (fun a b => FarC L d b a) ∧
    (∀ c ∈ ranked, c ∈ spacedBy (FarC L d) ranked ∨ ∃ t ∈ spacedBy (FarC L d) ranked, ¬ FarC L d c t) ∧
    ∀ c rest, ranked = c :: rest → ∃ tail, spacedBy (FarC L d) ranked = c :: tail := by
  have e := pickAll_spacedBy (L := L) d (fun _ => 0.0) ranked
  have hmem (c : Int) : (Hct.fromInt c : Hct (F64 L)) ∈ (spacedBy (FarC L d) ranked).map Hct.fromInt ↔ c ∈ spacedBy (FarC L d) ranked := by
    constructor
    · intro h
      have := List.mem_map_of_mem (f := Hct.toInt) h
      rwa [map_argb] at this
    · exact fun h => List.mem_map_of_mem h
  obtain ⟨p1, p2⟩ := pickAll_ok d (ranked.map fun c => (⟨Hct.fromInt c, 0.0⟩ : ScoredHct (F64 L))) [] List.Pairwise.nil
  rw [e] at p1 p2
  refine ⟨?_, ?_, fun c hc => ?_, ?_⟩
  · obtain ⟨s, h1, h2⟩ := pickAll_sublist d (ranked.map fun c => (⟨Hct.fromInt c, 0.0⟩ : ScoredHct (F64 L))) []
    rw [e, List.nil_append] at h1
    rw [← h1] at h2
    have h3 : (ranked.map fun c => (⟨Hct.fromInt c, 0.0⟩ : ScoredHct (F64 L))).map ScoredHct.hct = ranked.map Hct.fromInt := by
      rw [List.map_map]; rfl
    rw [h3] at h2
    have := h2.map Hct.toInt
    rwa [map_argb, map_argb] at this
  · rw [List.pairwise_map] at p1
    exact p1
  · have := p2 _ (List.mem_map_of_mem hc)
    rcases this with h | ⟨t, ht, hc⟩
    · exact .inl ((hmem c).1 h)
    · obtain ⟨t, ht', rfl⟩ := List.mem_map.1 ht
      exact .inr ⟨t, ht', not_not.2 hc⟩
  · rintro c rest rfl
    have h := pickAll_prefix d (rest.map fun c => (⟨Hct.fromInt c, 0.0⟩ : ScoredHct (F64 L))) [Hct.fromInt c]
    have h2 : pickAll d ((c :: rest).map fun c => (⟨Hct.fromInt c, 0.0⟩ : ScoredHct (F64 L))) [] =
      pickAll d (rest.map fun c => (⟨Hct.fromInt c, 0.0⟩ : ScoredHct (F64 L))) [Hct.fromInt c] := rfl
    rw [← h2, e] at h
    obtain ⟨t, ht⟩ := h
    have := congrArg (List.map Hct.toInt) ht
    rw [map_argb] at this
    exact ⟨t.map Hct.toInt, this.symm⟩

/-! ### What is kept -/

theorem keeps64 (hS : L.Sound) (hT : L.TempOk) (hZ : L.AtanZero) {entries : List (Int × Int)} (hc : Counts entries) {h : Histogram 𝔻}
    (hh : HistOf L entries h) (filter : Bool) (c : Int) :
    (QualifiesBy (hueC L) (chromaC L) (0.01 + 1 / 10 ^ 9) entries filter c → keeps filter (excitedProportions h) (Hct.fromInt c) = true) ∧
    (keeps filter (excitedProportions h) (Hct.fromInt c) = true → QualifiesBy (hueC L) (chromaC L) (0.01 - 1 / 10 ^ 9) entries filter c) := by
  obtain ⟨p, ip, hp⟩ := proportion64 hS hT hZ hc hh c
  obtain ⟨iC, -, -⟩ := chromaC_range hS c
  have i5 : Is (5.0 : 𝔻) 5 := by simpa using lit (L := L) 50 1 true 5 (by norm_num) (by norm_num)
  obtain ⟨t, it, ht⟩ := ap_lit (L := L) (m := 1) (s := true) (e := 2) (v := 0.01) (by norm_num) (by norm_num [abs_le])
  unfold keeps QualifiesBy
  generalize proportionOf (excitedProportions h) (Hct.fromInt c) = P at *
  generalize shareBy (hueC L) entries c = sh at *
  have hp := abs_le.1 hp
  have ht := abs_le.1 ht
  unfold ρ at hp ht
  cases filter with
  | false => simp
  | true =>
    simp only [Bool.true_and, Bool.not_eq_true', Bool.or_eq_false_iff, decide_eq_false_iff_not, forall_const, iC.lt_iff i5, not_lt]
    have e : P ≤ OfScientific.ofScientific 1 true 2 ↔ p ≤ t := ip.le_iff it
    rw [e, not_le]
    constructor
    · rintro ⟨h1, h2⟩; exact ⟨h1, by norm_num at *; linarith⟩
    · rintro ⟨h1, h2⟩; exact ⟨h1, by norm_num at *; linarith⟩

/-! ### The whole function -/

/-- What scoring returns, in terms of the computed hue differences and scores. -/
structure Selected (L : Libm) (entries : List (Int × Int)) (filter : Bool) (desired : Int) (h : Histogram (F64 L)) (ranked : List Int) (d : Int) : Prop where
  hist : HistOf L entries h
  perm : ranked.Perm ((entries.map Prod.fst).filter fun c => keeps filter (excitedProportions h) (Hct.fromInt c))
  order : ranked.Pairwise (fun a b => scoreC h b ≤ scoreC h a)
  low : 15 ≤ d
  high : d ≤ 90
  enough : d = 15 ∨ desired ≤ (spacedBy (FarC L d) ranked).length
  largest : ∀ d' : Int, d < d' → d' ≤ 90 → ((spacedBy (FarC L d') ranked).length : Int) < desired

theorem refinement64 (hS : L.Sound) (hT : L.TempOk) (hZ : L.AtanZero) {entries : List (Int × Int)} (hc : Counts entries)
    (desired fallback : Option Int) (filter : Option Bool) :
    ∃ (h : Histogram 𝔻) (ranked : List Int) (d : Int), Selected L entries (filter.getD true) (desired.getD 4) h ranked d ∧
      score 𝔻 entries desired fallback filter =
        some (if ranked = [] then [fallback.getD 0xff4285f4] else (spacedBy (FarC L d) ranked).take (max 1 (desired.getD 4)).toNat) := by
  obtain ⟨h, h1, h2, h3, h4, h5⟩ := histogram_ok64 hS hT hZ entries
  have hh : HistOf L entries h := ⟨h3, h4, h5⟩
  obtain ⟨ranked, r1, r2, r3⟩ := scored64 hS hT hZ hc hh h2 (filter.getD true)
  obtain ⟨d, d1, d2, d3, d4, d5⟩ := chooseRounds_ok (desired.getD 4) (scored (filter.getD true) h) 75 []
  have hpick : ∀ d : Int, pickAll d (scored (filter.getD true) h) [] = (spacedBy (FarC L d) ranked).map Hct.fromInt := by
    intro d; rw [r3]; exact pickAll_spacedBy d _ ranked
  refine ⟨h, ranked, d, ⟨hh, r1, r2, d1, by omega, ?_, ?_⟩, ?_⟩
  · rw [hpick, List.length_map] at d4; exact d4
  · intro d' e1 e2
    have := d5 d' e1 (by omega)
    rwa [hpick, List.length_map] at this
  · unfold score
    rw [h1]
    show some _ = some _
    have hch : choose (desired.getD 4) (scored (filter.getD true) h) =
        ((spacedBy (FarC L d) ranked).take (max 1 (desired.getD 4)).toNat).map Hct.fromInt := by
      rw [List.map_take, ← hpick]; exact d3
    rw [hch, map_argb]
    congr 1
    cases hr : ranked with
    | nil => rw [if_pos rfl]; simp [spacedBy]
    | cons c rest =>
      obtain ⟨tail, ht⟩ := (spacedBy_ok L d ranked).2.2.2 c rest hr
      rw [hr] at ht
      obtain ⟨k, hk⟩ : ∃ k, (max 1 (desired.getD 4)).toNat = k + 1 := ⟨(max 1 (desired.getD 4)).toNat - 1, by omega⟩
      rw [hk, ht]
      simp

theorem Selected.mem {entries : List (Int × Int)} {filter : Bool} {desired d : Int} {h : Histogram 𝔻} {ranked : List Int}
    (s : Selected L entries filter desired h ranked d) (c : Int) :
    c ∈ ranked ↔ c ∈ entries.map Prod.fst ∧ keeps filter (excitedProportions h) (Hct.fromInt c) = true := by
  rw [s.perm.mem_iff, List.mem_filter]

end Mcu.Score
