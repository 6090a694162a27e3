import Verif.Lemmas.F64KMeans

/-! Images for which k-means in binary64 maps a colour to a far centre, or reports too few pixels.  All comparisons are decided with
a margin that is larger than the errors of binary64. -/

namespace Mcu.Lemmas

open Mcu.Ieee Props Props.Binary64 MathUtils ColorUtils QuantizerWsmeans Spec

section Any

variable {F : Type} [Fl F]

/-- A point stays if every other centre is skipped or is not nearer. -/
theorem bestCluster_none (clusters : List (Vec3 F)) (row : List (DistanceAndIndex F)) (k : Nat) (p : Vec3 F) (prev : Nat)
    (h : ∀ j < k, (row.getD j ⟨0.0, 0⟩).distance ≥ 4.0 * pointDistance p (clusters.getD prev ⟨0.0, 0.0, 0.0⟩) ∨
      ¬ pointDistance p (clusters.getD j ⟨0.0, 0.0, 0.0⟩) < pointDistance p (clusters.getD prev ⟨0.0, 0.0, 0.0⟩)) :
    bestCluster clusters row k p prev = none := by
  have key : ∀ l : List Nat, (∀ j ∈ l, j < k) →
      (l.foldl (fun (best : F × Option Nat) j =>
        if (row.getD j ⟨0.0, 0⟩).distance ≥ 4.0 * pointDistance p (clusters.getD prev ⟨0.0, 0.0, 0.0⟩) then best
        else
          let distance := pointDistance p (clusters.getD j ⟨0.0, 0.0, 0.0⟩)
          if distance < best.1 then (distance, some j) else best)
          (pointDistance p (clusters.getD prev ⟨0.0, 0.0, 0.0⟩), none)) =
        (pointDistance p (clusters.getD prev ⟨0.0, 0.0, 0.0⟩), none) := by
    intro l hl
    induction l with
    | nil => rfl
    | cons x rest ih =>
      rw [List.foldl_cons]
      rcases h x (hl x (by simp)) with hx | hx
      · rw [if_pos hx]; exact ih fun j hj => hl j (by simp [hj])
      · simp only
        rw [if_neg hx, ite_self]
        exact ih fun j hj => hl j (by simp [hj])
  have := key (List.range k) (by simp)
  unfold bestCluster
  simp only
  rw [this]

/-- The centres after a round in which no point moves. -/
theorem next_centre (pixels : List Int) (k : Nat) (s : KState F) (h : KInv k (countPixels pixels).length s)
    (hn : (assign (measured k s) k (((countPixels pixels).map Prod.fst).map pointFromInt)).all Option.isNone = true)
    (j : Nat) (hj : j < k) :
    (nextState k (((countPixels pixels).map Prod.fst).map pointFromInt) ((countPixels pixels).map Prod.snd) s).clusters.getD j
        ⟨0.0, 0.0, 0.0⟩ =
      centroid (((countPixels pixels).filter fun e =>
          s.clusterIndices.getD (((countPixels pixels).map Prod.fst).idxOf e.1) 0 = j).foldl (fun s e =>
          ⟨s.x0 + (pointFromInt e.1 : Vec3 F).x0 * Fl.ofInt e.2, s.x1 + (pointFromInt e.1 : Vec3 F).x1 * Fl.ofInt e.2,
            s.x2 + (pointFromInt e.1 : Vec3 F).x2 * Fl.ofInt e.2⟩) ⟨0.0, 0.0, 0.0⟩)
          (pixels.filter fun q => s.clusterIndices.getD (((countPixels pixels).map Prod.fst).idxOf q) 0 = j).length := by
  have hm : movedIndices k (((countPixels pixels).map Prod.fst).map pointFromInt) s = s.clusterIndices :=
    moved_none (by simpa using h) hn
  have hcount : (countSums k ((countPixels pixels).map Prod.snd) s.clusterIndices).getD j 0 =
      ((pixels.filter fun q => s.clusterIndices.getD (((countPixels pixels).map Prod.fst).idxOf q) 0 = j).length : Int) := by
    have : (((countSums k ((countPixels pixels).map Prod.snd) s.clusterIndices).getD j 0 : Int) : ℝ) =
        ((pixels.filter fun q => s.clusterIndices.getD (((countPixels pixels).map Prod.fst).idxOf q) 0 = j).length : ℝ) := by
      rw [countSums_eq k (((countPixels pixels).map Prod.fst).map pointFromInt) _ s.clusterIndices (by simp) h.indicesLt,
        inCluster_eq pixels s.clusterIndices h.indicesLength]
      simp
    exact_mod_cast this
  show (List.zipWith centroid _ _ ++ _).getD j _ = _
  rw [hm, centre_any k _ _ s.clusterIndices (by simp) (by simp [h.indicesLength]) (countPixels_pos pixels) h.indicesLt
    _ j hj, hcount, triples_eq pixels s.clusterIndices h.indicesLength, List.filter_map, List.foldl_map]
  rfl

end Any

variable {L : Libm}

local notation "𝔻" => F64 L

/-- A point in binary64 near an exact one. -/
def At (p : Vec3 𝔻) (P : Vec3 ℝ) : Prop :=
  Ap p.x0 P.x0 (492 / 10 ^ 7) ∧ Ap p.x1 P.x1 (1902 / 10 ^ 7) ∧ Ap p.x2 P.x2 (1902 / 10 ^ 7)

theorem at_point (hL : L.PowOk) (argb : Int) : At (pointFromInt argb : Vec3 𝔻) (labFromArgb argb) :=
  ⟨(lightness64 hL argb).weaken (by norm_num), (lab64 hL argb).1.weaken (by norm_num), (lab64 hL argb).2.1.weaken (by norm_num)⟩

theorem at_mean (hL : L.PowOk) (pixels : List Int) (hl : pixels.length ≤ 10 ^ 8) (c : Int → Bool) (hne : pixels.filter c ≠ []) :
    At (centroid (((countPixels pixels).filter fun e => c e.1).foldl (fun s e =>
          (⟨s.x0 + (pointFromInt e.1 : Vec3 𝔻).x0 * Fl.ofInt e.2, s.x1 + (pointFromInt e.1 : Vec3 𝔻).x1 * Fl.ofInt e.2,
            s.x2 + (pointFromInt e.1 : Vec3 𝔻).x2 * Fl.ofInt e.2⟩ : Vec3 𝔻)) ⟨0.0, 0.0, 0.0⟩) (pixels.filter c).length)
      (meanLab (pixels.filter c)) := by
  have hn : ((pixels.filter c).length : Int) ≠ 0 := by
    have := List.length_pos_of_ne_nil hne
    omega
  have b0 : ∀ q, |(labFromArgb q : Vec3 ℝ).x0| ≤ 501 := fun q => by
    have := (lab_ranges q).1
    norm_num at this
    rw [abs_le]; constructor <;> linarith
  have m0 := mean64 (f := fun q => (pointFromInt q : Vec3 𝔻).x0) (g := fun q => (labFromArgb q : Vec3 ℝ).x0)
    (lightness64 hL) b0 (by norm_num) pixels hl c hne
  have m1 := mean64 (f := fun q => (pointFromInt q : Vec3 𝔻).x1) (g := fun q => (labFromArgb q : Vec3 ℝ).x1)
    (fun q => (lab64 hL q).1) (fun q => (lab64 hL q).2.2.1) (by norm_num) pixels hl c hne
  have m2 := mean64 (f := fun q => (pointFromInt q : Vec3 𝔻).x2) (g := fun q => (labFromArgb q : Vec3 ℝ).x2)
    (fun q => (lab64 hL q).2.1) (fun q => (lab64 hL q).2.2.2) (by norm_num) pixels hl c hne
  rw [fold_parts]
  unfold centroid
  rw [if_neg hn]
  exact ⟨m0.weaken (by norm_num), m1.weaken (by norm_num), m2.weaken (by norm_num)⟩

/-- Distances in binary64. -/
theorem dist64 {p c : Vec3 𝔻} {P C : Vec3 ℝ} (hp : At p P) (hc : At c C) (D : ℝ) (D1 : 1 ≤ D) (D4 : D ≤ 4)
    (h0 : |P.x0 - C.x0| ≤ D) (h1 : |P.x1 - C.x1| ≤ D) (h2 : |P.x2 - C.x2| ≤ D) :
    Ap (pointDistance p c) (sqDist P C) (D * (175 / 10 ^ 5)) := by
  have hρ : ρ = 1 / 10 ^ 12 := rfl
  have one : ∀ {u v : 𝔻} {U V δ : ℝ}, Ap u U δ → Ap v V δ → |U - V| ≤ D → 4 / 10 ^ 5 ≤ δ → δ ≤ 2 / 10 ^ 4 →
      Ap ((u - v) * (u - v)) ((U - V) * (U - V)) (D * (4001 / 1000 * δ)) := by
    intro u v U V δ hu hv h l1 l2
    have a := (hu.sub hv (by norm_num at l2 ⊢; linarith)).weaken (ε := 2 * δ + ρ) (by linarith)
    refine (a.mul a (A := D) (B := D) h h ?_).weaken ?_ <;> rw [hρ] <;> norm_num at l1 l2 ⊢ <;> nlinarith
  have q : ∀ {x : ℝ}, |x| ≤ D → |x * x| ≤ 16 := by
    intro x hx
    rw [abs_mul]
    calc |x| * |x| ≤ 4 * 4 := mul_le_mul (hx.trans D4) (hx.trans D4) (abs_nonneg _) (by norm_num)
      _ = 16 := by norm_num
  have s0 := one hp.1 hc.1 h0 (by norm_num) (by norm_num)
  have s1 := one hp.2.1 hc.2.1 h1 (by norm_num) (by norm_num)
  have s2 := one hp.2.2 hc.2.2 h2 (by norm_num) (by norm_num)
  have q0 := abs_le.1 (q h0)
  have q1 := abs_le.1 (q h1)
  have q2 := abs_le.1 (q h2)
  unfold sqDist
  simp only [pointDistance]
  have e : (P.x0 - C.x0) ^ 2 + (P.x1 - C.x1) ^ 2 + (P.x2 - C.x2) ^ 2 = (P.x0 - C.x0) * (P.x0 - C.x0) +
      (P.x1 - C.x1) * (P.x1 - C.x1) + (P.x2 - C.x2) * (P.x2 - C.x2) := by ring
  rw [e]
  generalize (P.x0 - C.x0) * (P.x0 - C.x0) = a at *
  generalize (P.x1 - C.x1) * (P.x1 - C.x1) = b at *
  generalize (P.x2 - C.x2) * (P.x2 - C.x2) = d at *
  have b1 : |a + b| ≤ 32 := by rw [abs_le]; constructor <;> linarith
  have b2 : |a + b + d| ≤ 48 := by rw [abs_le]; constructor <;> linarith
  have t := s0.add s1 (by norm_num; linarith)
  refine (t.add s2 (by rw [hρ]; norm_num; linarith)).weaken ?_
  rw [hρ]; norm_num; linarith

/-! ### Dark colours -/

/-- A dark opaque colour. -/
def dark (r g b : Int) : Int := 0xFF000000 + r * 0x010000 + g * 0x0100 + b

/-- Its exact coordinates in L*a*b*. -/
noncomputable def darkLab (r g b : ℝ) : Vec3 ℝ :=
  ⟨24389 / 27 * ((0.2126 * r + 0.7152 * g + 0.0722 * b) / (255 * 12.92)),
    500 / 116 * (24389 / 27 / (255 * 12.92)) * ((0.41233895 * r + 0.35762064 * g + 0.18051042 * b) * 100 / 95.047 -
      (0.2126 * r + 0.7152 * g + 0.0722 * b)),
    200 / 116 * (24389 / 27 / (255 * 12.92)) * ((0.2126 * r + 0.7152 * g + 0.0722 * b) -
      (0.01932141 * r + 0.11916382 * g + 0.95034478 * b) * 100 / 108.883)⟩

theorem lab_dark (r g b : Int) (r0 : 0 ≤ r) (r1 : r ≤ 10) (g0 : 0 ≤ g) (g1 : g ≤ 10) (b0 : 0 ≤ b) (b1 : b ≤ 10) :
    (labFromArgb (dark r g b) : Vec3 ℝ) = darkLab r g b := by
  have hr : redFromArgb (dark r g b) = r := by unfold redFromArgb dark; omega
  have hg : greenFromArgb (dark r g b) = g := by unfold greenFromArgb dark; omega
  have hb : blueFromArgb (dark r g b) = b := by unfold blueFromArgb dark; omega
  have r2 : (r : ℝ) ≤ 10 := by exact_mod_cast r1
  have g2 : (g : ℝ) ≤ 10 := by exact_mod_cast g1
  have b2 : (b : ℝ) ≤ 10 := by exact_mod_cast b1
  simp only [labFromArgb, hr, hg, hb, linearized_small r1, linearized_small g1, linearized_small b1, srgbToXyz, whitePointD65, darkLab]
  rw [labF_of_le (by norm_num; linarith), labF_of_le (by norm_num; linarith), labF_of_le (by norm_num; linarith)]
  simp only [Vec3.mk.injEq]
  refine ⟨?_, ?_, ?_⟩ <;> norm_num <;> ring

theorem at_dark (hL : L.PowOk) (r g b : Int) (r0 : 0 ≤ r) (r1 : r ≤ 10) (g0 : 0 ≤ g) (g1 : g ≤ 10) (b0 : 0 ≤ b) (b1 : b ≤ 10) :
    At (pointFromInt (dark r g b) : Vec3 𝔻) (darkLab r g b) := by
  rw [← lab_dark r g b r0 r1 g0 g1 b0 b1]; exact at_point hL _

theorem meanLab_nil (l : List Int) : meanLab l = ⟨(l.map fun c => (labFromArgb c : Vec3 ℝ).x0).sum / l.length,
    (l.map fun c => (labFromArgb c : Vec3 ℝ).x1).sum / l.length, (l.map fun c => (labFromArgb c : Vec3 ℝ).x2).sum / l.length⟩ := rfl

/-- A dark channel with a larger margin. -/
theorem channel_dark (hL : L.PowOk) {x : 𝔻} {a δ : ℝ} {c : ℤ} (hx : Ap x a δ) (c0 : 1 ≤ c) (c1 : c ≤ 9)
    (h : |a - c * (100 / 255 / 12.92)| + δ ≤ 0.015) : delinearized x = c := by
  obtain ⟨v, iv, hv⟩ := hx
  have c0' : (1 : ℝ) ≤ c := by exact_mod_cast c0
  have c1' : (c : ℝ) ≤ 9 := by exact_mod_cast c1
  have hd : |v - c * (100 / 255 / 12.92)| ≤ 0.015 := by
    calc |v - c * (100 / 255 / 12.92)| = |(v - a) + (a - c * (100 / 255 / 12.92))| := by congr 1; ring
      _ ≤ _ := abs_add_le _ _
      _ ≤ _ := by linarith
  have hd' := abs_le.1 hd
  norm_num at hd'
  obtain ⟨w, w0, w1, w2, e⟩ := channel64 hL iv (by norm_num; linarith) (by norm_num; linarith)
  rw [max_eq_left (by linarith)] at w2
  have w2' := abs_le.1 w2
  norm_num at w2'
  rw [← e]
  apply delinearized_of_near (by omega) (by omega)
  unfold encode
  rw [if_pos (by norm_num; linarith)]
  rw [abs_lt]; norm_num; constructor <;> linarith

theorem ap_lab_last' {u w : 𝔻} {f W : ℝ} (hu : Ap u f (145 / 10 ^ 8)) (h0 : 0 ≤ f) (h1 : f ≤ 1.001) (hw : Ap w W ρ) (hW : 95 ≤ W)
    (hW1 : W ≤ 109) : Ap (labInvf u * w) (labInvf f * W) (65 / 10 ^ 5) := by
  have hρ : ρ = 1 / 10 ^ 12 := rfl
  have d := (ap_labInvf hu (by linarith) (by norm_num at h1 ⊢; linarith) (by norm_num)).weaken (ε := 59 / 10 ^ 7) (by norm_num)
  have hq : |labInvf f| ≤ 1.004 := by
    have a := labInvf_strictMono.monotone h0
    have b := labInvf_strictMono.monotone h1
    rw [labInvf_of_le (f := 0) (by norm_num)] at a
    rw [labInvf_of_gt (f := 1.001) (by norm_num)] at b
    rw [abs_le]; norm_num at a b ⊢; constructor <;> linarith
  have hW2 : |W| ≤ 109 := by rw [abs_of_nonneg (by linarith)]; exact hW1
  exact (d.mul hw (A := 1.004) (B := 109) hq hW2 (by rw [hρ]; norm_num)).weaken (by rw [hρ]; norm_num)

/-- A row of the matrix, near a dark channel. -/
theorem row_dark (hL : L.PowOk) {x y z u v w : 𝔻} {X Y Z U V W : ℝ} {n : Int} (hx : Ap x X (65 / 10 ^ 5)) (hy : Ap y Y (65 / 10 ^ 5))
    (hz : Ap z Z (65 / 10 ^ 5)) (bx : |X| ≤ 10) (by' : |Y| ≤ 10) (bz : |Z| ≤ 10) (hu : Ap u U ρ) (hv : Ap v V ρ) (hw : Ap w W ρ)
    (bu : |U| ≤ 3.3) (bv : |V| ≤ 3.3) (bw : |W| ≤ 3.3) (n0 : 1 ≤ n) (n1 : n ≤ 9)
    (h : |U * X + V * Y + W * Z - n * (100 / 255 / 12.92)| ≤ 0.0085) : delinearized (u * x + v * y + w * z) = n := by
  have hρ : ρ = 1 / 10 ^ 12 := rfl
  refine channel_dark hL ((ap_dot hu hv hw hx hy hz bu bv bw bx by' bz (by rw [hρ]; norm_num) ?_).weaken (ε := 65 / 10 ^ 4) (by
    rw [hρ]; norm_num)) n0 n1 (by norm_num at h ⊢; linarith)
  have n1' : (n : ℝ) ≤ 9 := by exact_mod_cast n1
  have n0' : (1 : ℝ) ≤ n := by exact_mod_cast n0
  have h' := abs_le.1 h
  generalize U * X + V * Y + W * Z = S at *
  have : |S| ≤ 10 := by rw [abs_le]; norm_num at h' ⊢; constructor <;> linarith
  rw [hρ]; norm_num; linarith

set_option maxHeartbeats 1000000 in
/-- The colour of a point near an exact dark one whose channels are not far from whole numbers. -/
theorem argb_dark (hL : L.PowOk) {p : Vec3 𝔻} {r g b : ℝ} (hp : At p (darkLab r g b)) (i j k : Int)
    (i1 : 1 ≤ i) (i2 : i ≤ 9) (j1 : 1 ≤ j) (j2 : j ≤ 9) (k1 : 1 ≤ k) (k2 : k ≤ 9)
    (hr : |r - i| ≤ 1 / 4) (hg : |g - j| ≤ 1 / 4) (hb : |b - k| ≤ 1 / 4) : pointToInt p = dark i j k := by
  have hρ : ρ = 1 / 10 ^ 12 := rfl
  have i1' : (1 : ℝ) ≤ i := by exact_mod_cast i1
  have i2' : (i : ℝ) ≤ 9 := by exact_mod_cast i2
  have j1' : (1 : ℝ) ≤ j := by exact_mod_cast j1
  have j2' : (j : ℝ) ≤ 9 := by exact_mod_cast j2
  have k1' : (1 : ℝ) ≤ k := by exact_mod_cast k1
  have k2' : (k : ℝ) ≤ 9 := by exact_mod_cast k2
  have hr' := abs_le.1 hr
  have hg' := abs_le.1 hg
  have hb' := abs_le.1 hb
  have wx : Ap (95.047 : F64 L) 95.047 ρ := ap_lit rfl (by norm_num [abs_of_pos])
  have wy : Ap (100.0 : F64 L) 100.0 ρ := by
    have := (ap100 (L := L)).weaken ρ_pos.le
    rwa [show (100.0 : ℝ) = 100 by norm_num]
  have wz : Ap (108.883 : F64 L) 108.883 ρ := ap_lit rfl (by norm_num [abs_of_pos])
  obtain ⟨hl, ha, hc⟩ := hp
  simp only [darkLab] at hl ha hc
  -- the three values of the inverse companding function
  obtain ⟨fy, ey⟩ : ∃ fy : ℝ, fy = (24389 / 27 * ((0.2126 * r + 0.7152 * g + 0.0722 * b) / (255 * 12.92)) + 16) / 116 := ⟨_, rfl⟩
  obtain ⟨fx, ex⟩ : ∃ fx : ℝ, fx = (24389 / 27 * ((0.41233895 * r + 0.35762064 * g + 0.18051042 * b) * 100 / 95.047 / (255 * 12.92)) + 16) / 116 := ⟨_, rfl⟩
  obtain ⟨fz, ez⟩ : ∃ fz : ℝ, fz = (24389 / 27 * ((0.01932141 * r + 0.11916382 * g + 0.95034478 * b) * 100 / 108.883 / (255 * 12.92)) + 16) / 116 := ⟨_, rfl⟩
  have y0 : 0 ≤ fy ∧ fy ≤ 0.2 := by rw [ey]; norm_num; constructor <;> linarith
  have x0 : 0 ≤ fx ∧ fx ≤ 0.2 := by rw [ex]; norm_num; constructor <;> linarith
  have z0 : 0 ≤ fz ∧ fz ≤ 0.2 := by rw [ez]; norm_num; constructor <;> linarith
  have hy : Ap ((p.x0 + 16.0) / 116.0) fy (43 / 10 ^ 8) := by
    have s := (hl.add ap16 (by norm_num [abs_of_pos]; rw [abs_of_nonneg (by linarith)]; linarith)).weaken (ε := 493 / 10 ^ 7) (by rw [hρ]; norm_num)
    rw [ey]
    exact (s.div ap116 (β := 116) (Q := 2) (by norm_num) (by norm_num) (by
      norm_num; rw [abs_of_nonneg (by linarith)]; linarith) (by norm_num)).weaken (by rw [hρ]; norm_num)
  have hx : Ap (p.x1 / 500.0 + (p.x0 + 16.0) / 116.0) fx (145 / 10 ^ 8) := by
    have d := (ha.div ap500 (β := 500) (Q := 2) (by norm_num) (by norm_num) (by
      rw [abs_le]; norm_num; constructor <;> linarith) (by norm_num)).weaken (ε := 4 / 10 ^ 7) (by rw [hρ]; norm_num)
    have e : 500 / 116 * (24389 / 27 / (255 * 12.92)) * ((0.41233895 * r + 0.35762064 * g + 0.18051042 * b) * 100 / 95.047 -
      (0.2126 * r + 0.7152 * g + 0.0722 * b)) / 500 + fy = fx := by rw [ex, ey]; norm_num; ring
    have s := d.add hy (by rw [e, abs_of_nonneg x0.1]; norm_num at x0 ⊢; linarith)
    rw [e] at s
    exact s.weaken (by rw [hρ]; norm_num)
  have hz : Ap ((p.x0 + 16.0) / 116.0 - p.x2 / 200.0) fz (145 / 10 ^ 8) := by
    have d := (hc.div ap200 (β := 200) (Q := 2) (by norm_num) (by norm_num) (by
      rw [abs_le]; norm_num; constructor <;> linarith) (by norm_num)).weaken (ε := 96 / 10 ^ 8) (by rw [hρ]; norm_num)
    have e : fy - 200 / 116 * (24389 / 27 / (255 * 12.92)) * ((0.2126 * r + 0.7152 * g + 0.0722 * b) -
      (0.01932141 * r + 0.11916382 * g + 0.95034478 * b) * 100 / 108.883) / 200 = fz := by rw [ez, ey]; norm_num; ring
    have s := hy.sub d (by rw [e, abs_of_nonneg z0.1]; norm_num at z0 ⊢; linarith)
    rw [e] at s
    exact s.weaken (by rw [hρ]; norm_num)
  have lx := ap_lab_last' hx x0.1 (by norm_num at x0 ⊢; linarith) wx (by norm_num) (by norm_num)
  have ly := ap_lab_last' (hy.weaken (by norm_num)) y0.1 (by norm_num at y0 ⊢; linarith) wy (by norm_num) (by norm_num)
  have lz := ap_lab_last' hz z0.1 (by norm_num at z0 ⊢; linarith) wz (by norm_num) (by norm_num)
  rw [labInvf_of_le (by norm_num at x0 ⊢; linarith)] at lx
  rw [labInvf_of_le (by norm_num at y0 ⊢; linarith)] at ly
  rw [labInvf_of_le (by norm_num at z0 ⊢; linarith)] at lz
  have bx : |(116 * fx - 16) / (24389 / 27) * 95.047| ≤ 10 := by rw [ex, abs_le]; norm_num; constructor <;> linarith
  have by' : |(116 * fy - 16) / (24389 / 27) * 100.0| ≤ 10 := by rw [ey, abs_le]; norm_num; constructor <;> linarith
  have bz : |(116 * fz - 16) / (24389 / 27) * 108.883| ≤ 10 := by rw [ez, abs_le]; norm_num; constructor <;> linarith
  have e1 : |3.2413774792388685 * ((116 * fx - 16) / (24389 / 27) * 95.047) + -1.5376652402851851 * ((116 * fy - 16) / (24389 / 27) * 100.0) +
      -0.49885366846268053 * ((116 * fz - 16) / (24389 / 27) * 108.883) - i * (100 / 255 / 12.92)| ≤ 0.0085 := by
    rw [ex, ey, ez, abs_le]; norm_num; constructor <;> linarith
  have e2 : |-0.9691452513005321 * ((116 * fx - 16) / (24389 / 27) * 95.047) + 1.8758853451067872 * ((116 * fy - 16) / (24389 / 27) * 100.0) +
      0.04156585616912061 * ((116 * fz - 16) / (24389 / 27) * 108.883) - j * (100 / 255 / 12.92)| ≤ 0.0085 := by
    rw [ex, ey, ez, abs_le]; norm_num; constructor <;> linarith
  have e3 : |0.05562093689691305 * ((116 * fx - 16) / (24389 / 27) * 95.047) + -0.20395524564742123 * ((116 * fy - 16) / (24389 / 27) * 100.0) +
      1.0571799111220335 * ((116 * fz - 16) / (24389 / 27) * 108.883) - k * (100 / 255 / 12.92)| ≤ 0.0085 := by
    rw [ex, ey, ez, abs_le]; norm_num; constructor <;> linarith
  simp only [pointToInt, argbFromLab, argbFromXyz, whitePointD65, xyzToSrgb]
  generalize (116 * fx - 16) / (24389 / 27) * 95.047 = X at *
  generalize (116 * fy - 16) / (24389 / 27) * 100.0 = Y at *
  generalize (116 * fz - 16) / (24389 / 27) * 108.883 = Z at *
  generalize (labInvf (p.x1 / 500.0 + (p.x0 + 16.0) / 116.0) * 95.047 : 𝔻) = x at *
  generalize (labInvf ((p.x0 + 16.0) / 116.0) * 100.0 : 𝔻) = y at *
  generalize (labInvf ((p.x0 + 16.0) / 116.0 - p.x2 / 200.0) * 108.883 : 𝔻) = z at *
  clear hl ha hc hy hx hz ex ey ez
  have c1 := row_dark hL (u := 3.2413774792388685) (v := -1.5376652402851851) (w := -0.49885366846268053) (n := i)
      lx ly lz bx by' bz (ap_lit rfl (by norm_num [abs_of_pos]))
      (Ap.neg (ap_lit rfl (by norm_num [abs_of_pos]))) (Ap.neg (ap_lit rfl (by norm_num [abs_of_pos])))
      (by norm_num [abs_of_pos]) (by norm_num [abs_of_pos]) (by norm_num [abs_of_pos]) i1 i2 e1
  have c2 := row_dark hL (u := -0.9691452513005321) (v := 1.8758853451067872) (w := 0.04156585616912061) (n := j)
      lx ly lz bx by' bz (Ap.neg (ap_lit rfl (by norm_num [abs_of_pos])))
      (ap_lit rfl (by norm_num [abs_of_pos])) (ap_lit rfl (by norm_num [abs_of_pos]))
      (by norm_num [abs_of_pos]) (by norm_num [abs_of_pos]) (by norm_num [abs_of_pos]) j1 j2 e2
  have c3 := row_dark hL (u := 0.05562093689691305) (v := -0.20395524564742123) (w := 1.0571799111220335) (n := k)
      lx ly lz bx by' bz (ap_lit rfl (by norm_num [abs_of_pos]))
      (Ap.neg (ap_lit rfl (by norm_num [abs_of_pos]))) (ap_lit rfl (by norm_num [abs_of_pos]))
      (by norm_num [abs_of_pos]) (by norm_num [abs_of_pos]) (by norm_num [abs_of_pos]) k1 k2 e3
  rw [c1, c2, c3]
  simp only [argbFromRgb, dark]
  omega

end Mcu.Lemmas
