import Verif.Props.Binary64Blend
import Verif.Props.Binary64Roles

/-! Property C64 in IEEE-754 binary64: making viewing conditions. -/

namespace Mcu.Props.Binary64

open Mcu.Ieee MathUtils ColorUtils Lemmas

variable {L : Libm}

local notation "𝔻" => F64 L

theorem ext_is {x : 𝔻} {a : ℝ} (h : Is x a) : Dbl.ext x = (a : EReal) := by
  obtain ⟨f, rfl⟩ := h
  rcases x with _ | b | b | ⟨w, hw⟩
  · exact f.elim
  · exact f.elim
  · rfl
  · rfl

/-- C64 (binary64): making viewing conditions panics exactly if a surround is given that is NaN, infinite, negative or above 2. -/
theorem c64_binary64_panics_iff (wp : Option (Vec3 𝔻)) (al bl s : Option 𝔻) (di : Option Bool) :
    ViewingConditions.make wp al bl s di = none ↔ ∃ v, s = some v ∧ (¬ Fin v ∨ val v < 0 ∨ 2 < val v) := by
  have i2 : Is (2.0 : 𝔻) 2 := by simpa using lit (L := L) 20 1 true 2 (by norm_num) (by norm_num)
  have ok (v : 𝔻) : (v ≥ 0.0 ∧ v ≤ 2.0) ↔ ¬ (¬ Fin v ∨ val v < 0 ∨ 2 < val v) := by
    by_cases f : Fin v
    · have iv : Is v (val v) := ⟨f, rfl⟩
      rw [ge_iff_le, l0.le_iff iv, iv.le_iff i2]
      simp [f]
    · simp only [f, not_false_eq_true, true_or, not_true, iff_false]
      rintro ⟨h1, h2⟩
      obtain ⟨-, n, e1⟩ : Dbl.le _ _ := h1
      obtain ⟨-, -, e2⟩ : Dbl.le _ _ := h2
      rcases v with _ | b | b | ⟨w, hw⟩
      · exact absurd n (by simp [Dbl.isNan])
      · cases b
        · rw [ext_is i2] at e2
          exact absurd e2 (by simp [Dbl.ext])
        · rw [ext_is l0] at e1
          exact absurd e1 (by simp [Dbl.ext])
      · exact f trivial
      · exact f trivial
  cases s with
  | none =>
    simp only [ViewingConditions.make, Option.getD_none, reduceCtorEq, false_and, exists_false, iff_false]
    rw [if_pos]
    · simp
    · rw [ge_iff_le, l0.le_iff i2, i2.le_iff i2]; norm_num
  | some v =>
    simp only [ViewingConditions.make, Option.getD_some, Option.some.injEq, exists_eq_left']
    have := ok v
    split
    · next h => simp only [reduceCtorEq, false_iff]; exact this.1 h
    · next h => simp only [true_iff]; exact not_not.1 fun h' => h (this.2 h')

theorem fmax_left (x y : Dbl) (n : x.isNan = false) : Dbl.le x (Dbl.fmax x y) := by
  have n' : ¬ x.isNan = true := by rw [n]; simp
  unfold Dbl.fmax
  rw [if_neg n']
  split_ifs with h1 h2
  · exact ⟨n, n, le_rfl⟩
  · exact ⟨n, h2.2.1, h2.2.2.le⟩
  · exact ⟨n, n, le_rfl⟩

/-- C64 (binary64): the lightness of the background is a number of at least 0.1, even for NaN. -/
theorem c64_binary64_background (wp : Option (Vec3 𝔻)) (al bl s : Option 𝔻) (di : Option Bool) :
    (0.1 : 𝔻) ≤ (ViewingConditions.makeCore wp al bl s di).backgroundLstar := by
  obtain ⟨w, iw, -⟩ : Ap (0.1 : 𝔻) 0.1 (1 / 10 ^ 15) := ap_lit_small (by norm_num)
  have n : Dbl.isNan (0.1 : 𝔻) = false := fin_num iw.1
  have e : (ViewingConditions.makeCore wp al bl s di).backgroundLstar = Dbl.fmax (0.1 : 𝔻) (bl.getD 50.0) := rfl
  rw [e]
  generalize (bl.getD 50.0 : 𝔻) = b
  exact fmax_left _ _ n

/-- A number that is not positive, or minus infinity. -/
def Low (x : 𝔻) : Prop := (∃ w, Is x w ∧ w ≤ 0) ∨ x = (Dbl.inf true : Dbl)

theorem low_shift {x : 𝔻} (h : Low x) : Low (x - 42.0) := by
  have i : Is (42.0 : 𝔻) 42 := by simpa using lit (L := L) 420 1 true 42 (by norm_num) (by norm_num)
  rcases h with ⟨w, iw, w0⟩ | rfl
  · by_cases hb : |rnd (w - 42)| < 2 ^ 1024
    · refine .inl ⟨_, iw.sub i hb, ?_⟩
      have := rnd_mono (show w - 42 ≤ 0 by linarith)
      rwa [rnd_zero] at this
    · right
      change Dbl.add x (Dbl.neg (42.0 : 𝔻)) = _
      obtain ⟨f, e⟩ := i
      obtain ⟨g, e'⟩ := iw
      have s : Dbl.ofReal false (w - 42) = Dbl.inf true := by
        have n0 : rnd (w - 42) ≠ 0 := fun h => hb (by rw [h, abs_zero]; positivity)
        have n1 : w - 42 < 0 := by linarith
        simp only [Dbl.ofReal, n0, hb, dif_neg, not_false_eq_true, n1, decide_true]
      have n2 : w + -42 ≠ 0 := by intro h; linarith
      rw [sub_eq_add_neg] at s
      rcases hy : (42.0 : 𝔻) with _ | b | b | ⟨v, hv⟩ <;> rw [hy] at f e
      · exact f.elim
      · exact f.elim
      · exact absurd e (by simp [Dbl.val])
      · change v = 42 at e
        subst e
        rcases x with _ | b | b | ⟨u, hu⟩
        · exact g.elim
        · exact g.elim
        · change (0 : ℝ) = w at e'
          subst e'
          simpa [Dbl.add, Dbl.neg, Dbl.val] using s
        · change u = w at e'
          subst e'
          simpa [Dbl.add, Dbl.neg, Dbl.val, n2] using s
  · right
    obtain ⟨f, e⟩ := i
    change Dbl.add _ (Dbl.neg (42.0 : 𝔻)) = _
    rcases hy : (42.0 : 𝔻) with _ | b | b | ⟨v, hv⟩ <;> rw [hy] at f e
    · exact f.elim
    · exact f.elim
    · rfl
    · rfl

theorem low_scale {x : 𝔻} (h : Low x) : Low (x / 92.0) := by
  have i : Is (92.0 : 𝔻) 92 := by simpa using lit (L := L) 920 1 true 92 (by norm_num) (by norm_num)
  rcases h with ⟨w, iw, w0⟩ | rfl
  · have b : |rnd (w / 92)| ≤ |w| := by
      have h0 := rnd_mono (show w / 92 ≤ 0 by linarith)
      have h1 := rnd_mono (show w ≤ w / 92 by linarith)
      rw [rnd_zero] at h0
      rw [iw.rep.rnd_eq] at h1
      rw [abs_of_nonpos h0, abs_of_nonpos w0]; linarith
    refine .inl ⟨_, iw.div i (by norm_num) (b.trans_lt iw.lt_max), ?_⟩
    have := rnd_mono (show w / 92 ≤ 0 by linarith)
    rwa [rnd_zero] at this
  · right
    obtain ⟨f, e⟩ := i
    change Dbl.div _ (92.0 : 𝔻) = _
    rcases hy : (92.0 : 𝔻) with _ | b | b | ⟨v, hv⟩ <;> rw [hy] at f e
    · exact f.elim
    · exact f.elim
    · exact absurd e (by simp [Dbl.val])
    · change v = 92 at e
      subst e
      simp [Dbl.div, Dbl.neg?]

/-- A positive double, negated. -/
theorem low_neg {x : 𝔻} (h : x > 0.0) : Low (-x) := by
  obtain ⟨-, n, e⟩ : Dbl.lt _ _ := h
  rw [ext_is l0] at e
  rcases x with _ | b | b | ⟨v, hv⟩
  · exact absurd n (by simp [Dbl.isNan])
  · cases b
    · exact .inr rfl
    · exact absurd e (by simp [Dbl.ext])
  · exact .inl ⟨0, ⟨trivial, rfl⟩, le_rfl⟩
  · refine .inl ⟨-v, ⟨trivial, rfl⟩, ?_⟩
    have : (0 : ℝ) < v := by
      have e' : ((0 : ℝ) : EReal) < ((v : ℝ) : EReal) := e
      exact_mod_cast e'
    linarith

/-- C64 (binary64): the degree of adaptation is a number between 0 and 1, and 1 for a discounted illuminant, however bright the
surroundings (infinite and NaN included). -/
theorem c64_binary64_adaptation (hE : L.ExpLow) (wp : Option (Vec3 𝔻)) (al bl s : Option 𝔻) (di : Option Bool) (vc : ViewingConditions 𝔻)
    (h : ViewingConditions.make wp al bl s di = some vc) :
    let w := wp.getD whitePointD65
    ∃ d : 𝔻, Fin d ∧ 0 ≤ val d ∧ val d ≤ 1 ∧ (di = some true → val d = 1) ∧
      vc.rgbD.x0 = d * (100.0 / (w.x0 * 0.401288 + w.x1 * 0.650173 + w.x2 * (-0.051461))) + 1.0 - d ∧
      vc.rgbD.x1 = d * (100.0 / (w.x0 * (-0.250268) + w.x1 * 1.204414 + w.x2 * 0.045854)) + 1.0 - d ∧
      vc.rgbD.x2 = d * (100.0 / (w.x0 * (-0.002079) + w.x1 * 0.048952 + w.x2 * 0.953127)) + 1.0 - d := by
  intro w
  have hs : ¬ ∃ v, s = some v ∧ (¬ Fin v ∨ val v < 0 ∨ 2 < val v) := fun hc => by
    rw [(c64_binary64_panics_iff wp al bl s di).2 hc] at h; cases h
  have e : vc = ViewingConditions.makeCore wp al bl s di := by
    simp only [ViewingConditions.make] at h
    split at h
    · exact (Option.some.inj h).symm
    · cases h
  subst e
  have i2 : Is (2.0 : 𝔻) 2 := by simpa using lit (L := L) 20 1 true 2 (by norm_num) (by norm_num)
  have is : In (s.getD 2.0 : 𝔻) 0 2 := by
    cases s with
    | none => exact ⟨2, i2, by norm_num, le_rfl⟩
    | some v =>
      push Not at hs
      obtain ⟨a, b, c⟩ := hs v rfl
      exact ⟨val v, ⟨a, rfl⟩, b, c⟩
  have i10 : In (10.0 : 𝔻) 10 10 := by
    have : Is (10.0 : 𝔻) 10 := by simpa using lit (L := L) 100 1 true 10 (by norm_num) (by norm_num)
    exact this.in
  have f1 := is.div i10 (-1 / 10 ^ 9) 0.201 (by norm_num) (by norm_num) (by norm_num) (by norm_num) (by norm_num) (by norm_num)
  have f2 := (in_lit (L := L) (m := 8) (s := true) (e := 1) 0.8 rfl (by norm_num [abs_of_pos])).add f1 0.79 1.01 (by norm_num) (by norm_num) (by norm_num) (by norm_num)
  obtain ⟨la, hla, low⟩ : ∃ la : 𝔻, la = (if al.getD (-1.0) > (0.0 : 𝔻) then al.getD (-1.0) else 200.0 / Fl.pi * yFromLstar 50.0 / 100.0) ∧ Low (-la) := by
    refine ⟨_, rfl, ?_⟩
    split
    · next h => exact low_neg h
    · obtain ⟨v, iv, v0, -⟩ := in_la (L := L)
      have e : (vc64 L).adaptingLuminance = 200.0 / Fl.pi * yFromLstar 50.0 / 100.0 := by
        have e : (vc64 L).adaptingLuminance = if (-1.0 : 𝔻) > 0.0 then -1.0 else 200.0 / Fl.pi * yFromLstar 50.0 / 100.0 := rfl
        rw [e, if_neg]
        rw [gt_iff_lt, l0.lt_iff l1.neg]; norm_num
      rw [e] at iv
      exact .inl ⟨-v, iv.neg, by norm_num at v0 ⊢; linarith⟩
  have x := low_scale (low_shift low)
  obtain ⟨p, ip, p0, p1⟩ : ∃ p, Is (Fl.exp ((-la - 42.0) / 92.0) : 𝔻) p ∧ 0 ≤ p ∧ p ≤ 1 := by
    obtain ⟨f, b0, b1⟩ := hE ((-la - 42.0) / 92.0 : 𝔻) (by
      rcases x with ⟨w, iw, w0⟩ | x
      · exact .inl ⟨iw.1, by rw [iw.2]; exact w0⟩
      · exact .inr x)
    exact ⟨_, ⟨f, rfl⟩, b0, b1⟩
  have l36 := in_lit (L := L) (m := 36) (s := true) (e := 1) 3.6 rfl (by norm_num [abs_of_pos])
  have g1 := (l1 (L := L)).in.div l36 0.27 0.28 (by norm_num) (by norm_num) (by norm_num) (by norm_num) (by norm_num) (by norm_num)
  have g2 := g1.mul (⟨p, ip, p0, p1⟩ : In (Fl.exp ((-la - 42.0) / 92.0) : 𝔻) 0 1) (-1 / 10 ^ 9) 0.29 (by norm_num) (by norm_num) (by norm_num) (by norm_num) (by norm_num) (by norm_num)
  have g3 := (l1 (L := L)).in.sub g2 0.7 1.1 (by norm_num) (by norm_num) (by norm_num) (by norm_num)
  have g4 := f2.mul g3 0.5 1.2 (by norm_num) (by norm_num) (by norm_num) (by norm_num) (by norm_num) (by norm_num)
  obtain ⟨d, hd, u, iu, hu⟩ : ∃ d : 𝔻, d = (if di.getD false = true then 1.0 else (0.8 + s.getD 2.0 / 10.0) * (1.0 - (1.0 / 3.6) * Fl.exp ((-la - 42.0) / 92.0)) : 𝔻) ∧
      ∃ u, Is d u ∧ (di = some true → u = 1) := by
    refine ⟨_, rfl, ?_⟩
    split
    · exact ⟨1, l1, fun _ => rfl⟩
    · next h =>
      obtain ⟨v, iv, -⟩ := g4
      exact ⟨v, iv, fun h' => absurd (by rw [h']; rfl) h⟩
  obtain ⟨c, hc, f, c0, c1, c2⟩ : ∃ c : 𝔻, c = (if d > 1.0 then 1.0 else if d < 0.0 then 0.0 else d) ∧ Fin c ∧ 0 ≤ val c ∧ val c ≤ 1 ∧ (di = some true → val c = 1) := by
    refine ⟨_, rfl, ?_⟩
    have e1 : val (1.0 : 𝔻) = 1 := l1.2
    have e0 : val (0.0 : 𝔻) = 0 := l0.2
    have ed : val d = u := iu.2
    split
    · rw [e1]; exact ⟨l1.1, by norm_num, le_rfl, fun _ => rfl⟩
    · next h1 =>
      rw [gt_iff_lt, l1.lt_iff iu] at h1
      split
      · next h2 =>
        rw [iu.lt_iff l0] at h2
        rw [e0]; exact ⟨l0.1, le_rfl, by norm_num, fun h => by rw [hu h] at h2; linarith⟩
      · next h2 =>
        rw [iu.lt_iff l0] at h2
        push Not at h1 h2
        rw [ed]; exact ⟨iu.1, h2, h1, hu⟩
  subst hla
  subst hd
  subst hc
  exact ⟨_, f, c0, c1, c2, rfl, rfl, rfl⟩

/-- The hypotheses can be met: a library that rounds correctly, and viewing conditions in infinitely bright surroundings. -/
example : ∃ L : Libm, L.ExpLow ∧ ∃ vc : ViewingConditions (F64 L), ViewingConditions.make (F := F64 L) none (some (Dbl.inf false)) none none none = some vc := by
  obtain ⟨L, -⟩ := blend_sound_exists
  refine ⟨{ L with exp := fun x => match x with | .inf true => Dbl.zero false | x => Dbl.ofReal false (Real.exp x.val) }, ?_, ?_⟩
  · rintro x (⟨f, h⟩ | rfl)
    · have e1 : Real.exp x.val ≤ 1 := Real.exp_le_one_iff.2 h
      have e0 := Real.exp_pos x.val
      have hi := is_ofReal (L := L) (v := Real.exp x.val) false (rnd_huge (by rw [abs_of_pos e0]; exact e1.trans (by norm_num)))
      have k : (Dbl.ofReal false (Real.exp x.val)).Fin ∧ 0 ≤ (Dbl.ofReal false (Real.exp x.val)).val ∧ (Dbl.ofReal false (Real.exp x.val)).val ≤ 1 := by
        refine ⟨hi.1, ?_, ?_⟩
        · rw [show (Dbl.ofReal false (Real.exp x.val)).val = _ from hi.2]; exact (rnd_pos_range e0.le).2.2
        · rw [show (Dbl.ofReal false (Real.exp x.val)).val = _ from hi.2]
          have := rnd_mono e1
          rwa [(l1 (L := L)).rep.rnd_eq] at this
      rcases x with _ | b | b | ⟨v, hv⟩
      · exact f.elim
      · exact f.elim
      · exact k
      · exact k
    · exact ⟨trivial, le_rfl, zero_le_one⟩
  · rw [← Option.ne_none_iff_exists']
    rw [ne_eq, c64_binary64_panics_iff]
    rintro ⟨v, h, -⟩; cases h

end Mcu.Props.Binary64
