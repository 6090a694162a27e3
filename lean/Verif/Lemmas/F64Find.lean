import Verif.Lemmas.F64Channel

/-! The loop of the exact search, for any number type and in IEEE-754 binary64. -/

namespace Mcu.Lemmas

open Mcu.Ieee Props Props.Binary64 MathUtils ColorUtils HctSolver

section Generic

variable {F : Type} [Fl F]

/-- The luminance the search computes for a colour, hct_solver.rs 619-622. -/
def fnjOf (v : Vec3 F) : F := yFromLinrgb.x0 * v.x0 + yFromLinrgb.x1 * v.x1 + yFromLinrgb.x2 * v.x2

/-- The lightness tried in round `k`, hct_solver.rs 577 and 637. -/
def lightness (hr c y : F) : Nat → F
  | 0 => Fl.sqrt y * 11.0
  | k + 1 => lightness hr c y k - (fnjOf (linrgbOfJ hr c (lightness hr c y k)) - y) * lightness hr c y k /
      (2.0 * fnjOf (linrgbOfJ hr c (lightness hr c y k)))

/-- The colour of round `k`. -/
def candidate (hr c y : F) (k : Nat) : Vec3 F := linrgbOfJ hr c (lightness hr c y k)

/-- A colour the search does not give up at. -/
def Passed (v : Vec3 F) : Prop := ¬ (v.x0 < 0.0 ∨ v.x1 < 0.0 ∨ v.x2 < 0.0) ∧ ¬ fnjOf v ≤ 0.0

/-- What the exact search returns. -/
theorem find_result (hr c y : F) (n : Nat) : ∀ k : Nat, k + n = 5 →
    findLoop hr c y n (lightness hr c y k) = 0 ∨
    ∃ i, i < 5 ∧ (∀ m, k ≤ m → m ≤ i → Passed (candidate hr c y m)) ∧
      ¬ ((candidate hr c y i).x0 > 100.01 ∨ (candidate hr c y i).x1 > 100.01 ∨ (candidate hr c y i).x2 > 100.01) ∧
      (i = 4 ∨ Fl.abs (fnjOf (candidate hr c y i) - y) < 0.002) ∧
      findLoop hr c y n (lightness hr c y k) = argbFromLinrgb (candidate hr c y i) := by
  induction n with
  | zero => intro k _; exact .inl rfl
  | succ n ih =>
    intro k hk
    have ih := ih (k + 1) (by omega)
    have e : findLoop hr c y (n + 1) (lightness hr c y k) =
      if (candidate hr c y k).x0 < 0.0 ∨ (candidate hr c y k).x1 < 0.0 ∨ (candidate hr c y k).x2 < 0.0 then 0
      else if fnjOf (candidate hr c y k) ≤ 0.0 then 0
      else if n = 0 ∨ Fl.abs (fnjOf (candidate hr c y k) - y) < 0.002 then
        if (candidate hr c y k).x0 > 100.01 ∨ (candidate hr c y k).x1 > 100.01 ∨ (candidate hr c y k).x2 > 100.01 then 0
        else argbFromLinrgb (candidate hr c y k)
      else findLoop hr c y n (lightness hr c y (k + 1)) := rfl
    rw [e]
    split_ifs with c1 c2 c3 c4
    · exact .inl rfl
    · exact .inl rfl
    · exact .inl rfl
    · refine .inr ⟨k, by omega, ?_, c4, ?_, rfl⟩
      · intro m h1 h2
        obtain rfl : m = k := by omega
        exact ⟨c1, c2⟩
      · rcases c3 with c3 | c3
        · left; omega
        · exact .inr c3
    · rcases ih with h | ⟨i, h1, h2, h3, h4, h5⟩
      · exact .inl h
      · refine .inr ⟨i, h1, ?_, h3, h4, h5⟩
        intro m h6 h7
        rcases Nat.eq_or_lt_of_le h6 with rfl | h6
        · exact ⟨c1, c2⟩
        · exact h2 m h6 h7

end Generic

variable {L : Libm}

local notation "𝔻" => F64 L

theorem fin_add {x y : 𝔻} (h : Dbl.Fin (x + y)) : Dbl.Fin x ∧ Dbl.Fin y := by
  change Dbl.Fin (Dbl.add x y) at h
  rcases x with _ | s | s | ⟨v, hv⟩ <;> rcases y with _ | t | t | ⟨w, hw⟩ <;> simp only [Dbl.add, Dbl.Fin] at h ⊢ <;>
    first | exact ⟨trivial, trivial⟩ | skip
  by_cases e : s = t
  · rw [if_pos e] at h; exact h.elim
  · rw [if_neg e] at h; exact h.elim

theorem fin_sub {x y : 𝔻} (h : Dbl.Fin (x - y)) : Dbl.Fin x ∧ Dbl.Fin y := by
  have h' : Dbl.Fin (Dbl.add x (Dbl.neg y)) := h
  obtain ⟨a, b⟩ := fin_add (L := L) (x := x) (y := Dbl.neg y) h'
  refine ⟨a, ?_⟩
  rcases y with _ | t | t | ⟨w, hw⟩ <;> first | exact b | trivial

theorem fin_mul {x y : 𝔻} {a : ℝ} (hx : Is x a) (h : Dbl.Fin (x * y)) : Dbl.Fin y := by
  obtain ⟨h1, -⟩ := hx
  change Dbl.Fin (Dbl.mul x y) at h
  rcases x with _ | s | s | ⟨v, hv⟩ <;> rcases y with _ | t | t | ⟨w, hw⟩ <;> simp only [Dbl.mul, Dbl.Fin] at h h1 ⊢

theorem fin_of_abs_lt {x z : 𝔻} {b : ℝ} (hz : Is z b) (h : Fl.abs x < z) : Dbl.Fin x := by
  obtain ⟨h1, -⟩ := hz
  change Dbl.lt (Dbl.abs x) z at h
  rcases x with _ | s | s | ⟨v, hv⟩
  · exact absurd h.1 (by simp [Dbl.abs, Dbl.isNan])
  · have := h.2.2
    exact absurd this (by simp [Dbl.abs, Dbl.ext])
  · trivial
  · trivial

/-- The computed luminance of finite coordinates. -/
theorem ap_fnj {p : Vec3 𝔻} {X : Fin 3 → ℝ} (hp : IsV p X) (h0 : ∀ i, 0 ≤ X i) (h1 : ∀ i, X i ≤ 100.02) :
    Ap (fnjOf p) (wlum X) (1 / 10 ^ 9) := by
  have hρ : ρ = 1 / 10 ^ 12 := rfl
  have kr : Ap (yFromLinrgb : Vec3 𝔻).x0 0.2126 ρ := ap_lit (m := 2126) (s := true) (e := 4) (by norm_num) (by norm_num [abs_le])
  have kg : Ap (yFromLinrgb : Vec3 𝔻).x1 0.7152 ρ := ap_lit (m := 7152) (s := true) (e := 4) (by norm_num) (by norm_num [abs_le])
  have kb : Ap (yFromLinrgb : Vec3 𝔻).x2 0.0722 ρ := ap_lit (m := 722) (s := true) (e := 4) (by norm_num) (by norm_num [abs_le])
  have a0 := h0 0; have a1 := h0 1; have a2 := h0 2
  have b0 := h1 0; have b1 := h1 1; have b2 := h1 2
  norm_num at b0 b1 b2
  have t0 := kr.mul (hp 0).ap (A := 0.3) (B := 101) (by norm_num [abs_le]) (by rw [abs_le]; constructor <;> linarith) (by rw [hρ]; norm_num)
  have t1 := kg.mul (hp 1).ap (A := 0.8) (B := 101) (by norm_num [abs_le]) (by rw [abs_le]; constructor <;> linarith) (by rw [hρ]; norm_num)
  have t2 := kb.mul (hp 2).ap (A := 0.1) (B := 101) (by norm_num [abs_le]) (by rw [abs_le]; constructor <;> linarith) (by rw [hρ]; norm_num)
  have s1 := t0.add t1 (by
    rw [hρ, abs_of_nonneg (by positivity)]; norm_num; linarith)
  have s2 := s1.add t2 (by
    rw [hρ, abs_of_nonneg (by positivity)]; norm_num; linarith)
  refine Ap.weaken (a := wlum X) s2 ?_
  rw [hρ]; norm_num

/-- The colour of a point inside the cube has the tone of the point's luminance. -/
theorem color64_lum (hL : L.PowOk) {p : Vec3 𝔻} {X : Fin 3 → ℝ} (hp : IsV p X) (h0 : ∀ i, 0 ≤ X i) (h1 : ∀ i, X i ≤ 100.02) :
    |(lstarFromArgb (argbFromLinrgb p) : ℝ) - lstarFromY (wlum X)| ≤ 0.4101 := by
  obtain ⟨w, -, ew, hw⟩ := color64 hL hp (fun i => by have := h0 i; norm_num; linarith) h1
  have hl := lstarFromY_lipschitz (lum w) (wlum X)
  have c : ∀ i, |w.get i - X i| ≤ 1 / 10 ^ 9 := fun i => by
    have := ew i
    rwa [max_eq_left (h0 i)] at this
  have c0 := abs_le.1 (c 0)
  have c1 := abs_le.1 (c 1)
  have c2 := abs_le.1 (c 2)
  have hd : |lum w - wlum X| ≤ 1 / 10 ^ 8 := by
    unfold lum wlum
    simp only [Vec3.get] at c0 c1 c2
    rw [abs_le]; norm_num at *; constructor <;> linarith
  have h2 := abs_le.1 hw
  have h3 := abs_le.1 (hl.trans (mul_le_mul_of_nonneg_left hd (by norm_num)))
  rw [abs_le]
  norm_num at *
  constructor <;> linarith

/-- The luminance of a tone. -/
theorem is_target {t : 𝔻} {τ : ℝ} (it : Is t τ) (h0 : 0 ≤ τ) (h1 : ¬ t > 99.9999) :
    ∃ v, Is (yFromLstar t) v ∧ 0 ≤ v ∧ v ≤ 999999 / 10000 ∧ |v - yFromLstar τ| ≤ 2 / 10 ^ 8 := by
  obtain ⟨w, iw, hw⟩ := ap_lit (L := L) (m := 999999) (s := true) (e := 4) (v := 99.9999) rfl (by norm_num [abs_of_pos])
  change Is (99.9999 : 𝔻) w at iw
  rw [show (t > 99.9999) = ((99.9999 : 𝔻) < t) from rfl, iw.lt_iff it] at h1
  have hw := abs_le.1 hw
  unfold ρ at hw
  have ht : τ ≤ 99.99991 := by norm_num at *; linarith
  obtain ⟨v, iv, hv⟩ := ap_yFromLstar it.ap (by linarith) (by norm_num at ht; linarith) (by norm_num)
  have hv : |v - yFromLstar τ| ≤ 2 / 10 ^ 8 := hv.trans (by norm_num)
  obtain ⟨-, f1, -, f2, -⟩ := c11_binary64 t t it.1 it.1 (by rw [show val t = τ from it.2]; exact h0) le_rfl
    (by rw [show val t = τ from it.2]; norm_num at ht; linarith)
  rw [show val (yFromLstar t) = v from iv.2] at f1
  refine ⟨v, iv, f1, ?_, hv⟩
  have h2 := (c11_strictMono.1).monotone ht
  have h3 : yFromLstar (99.99991 : ℝ) ≤ 99.9998 := by
    rw [yFromLstar_eq, labInvf_of_gt (by norm_num)]
    norm_num
  have := abs_le.1 hv
  norm_num at *; linarith

/-- A candidate accepted because it is close to the requested luminance. -/
theorem checked64 (hL : L.PowOk) {p : Vec3 𝔻} {y : 𝔻} {v : ℝ} (iy : Is y v) (hp : Passed p)
    (hc : ¬ (p.x0 > 100.01 ∨ p.x1 > 100.01 ∨ p.x2 > 100.01)) (hf : Fl.abs (fnjOf p - y) < 0.002) :
    |(lstarFromArgb (argbFromLinrgb p) : ℝ) - lstarFromY v| ≤ 0.4301 := by
  have hρ : ρ = 1 / 10 ^ 12 := rfl
  obtain ⟨w, iw, hw⟩ := ap_lit (L := L) (m := 2) (s := true) (e := 3) (v := 0.002) rfl (by norm_num [abs_of_pos])
  change Is (0.002 : 𝔻) w at iw
  obtain ⟨g, ig, hg⟩ := ap_lit (L := L) (m := 10001) (s := true) (e := 2) (v := 100.01) rfl (by norm_num [abs_of_pos])
  change Is (100.01 : 𝔻) g at ig
  have hfin := fin_of_abs_lt iw hf
  obtain ⟨f1, -⟩ := fin_sub hfin
  obtain ⟨f2, f3⟩ := fin_add f1
  obtain ⟨f4, f5⟩ := fin_add f2
  have kr : Ap (yFromLinrgb : Vec3 𝔻).x0 0.2126 ρ := ap_lit (m := 2126) (s := true) (e := 4) (by norm_num) (by norm_num [abs_le])
  have kg : Ap (yFromLinrgb : Vec3 𝔻).x1 0.7152 ρ := ap_lit (m := 7152) (s := true) (e := 4) (by norm_num) (by norm_num [abs_le])
  have kb : Ap (yFromLinrgb : Vec3 𝔻).x2 0.0722 ρ := ap_lit (m := 722) (s := true) (e := 4) (by norm_num) (by norm_num [abs_le])
  obtain ⟨_, ikr, -⟩ := kr
  obtain ⟨_, ikg, -⟩ := kg
  obtain ⟨_, ikb, -⟩ := kb
  have g0 := fin_mul ikr f4
  have g1 := fin_mul ikg f5
  have g2 := fin_mul ikb f3
  have fin : ∀ i, Dbl.Fin (p.get i) := fun i => by
    fin_cases i
    · exact g0
    · exact g1
    · exact g2
  set X : Fin 3 → ℝ := fun i => Dbl.val (p.get i) with hX
  have iX : IsV p X := fun i => ⟨fin i, rfl⟩
  obtain ⟨hn, -⟩ := hp
  push Not at hn hc
  have n : ∀ i, ¬ p.get i < 0.0 := fun i => by
    fin_cases i
    · exact hn.1
    · exact hn.2.1
    · exact hn.2.2
  have m : ∀ i, ¬ p.get i > 100.01 := fun i => by
    fin_cases i
    · exact hc.1
    · exact hc.2.1
    · exact hc.2.2
  have h0 : ∀ i, 0 ≤ X i := fun i => by
    have := n i
    rw [(iX i).lt_iff l0'] at this
    exact not_lt.1 this
  have h1 : ∀ i, X i ≤ 100.02 := fun i => by
    have := m i
    rw [show (p.get i > 100.01) = ((100.01 : 𝔻) < p.get i) from rfl, ig.lt_iff (iX i)] at this
    have hg := abs_le.1 hg
    rw [hρ] at hg
    norm_num at *; linarith
  have hc := color64_lum hL iX h0 h1
  obtain ⟨f, jf, ef⟩ := ap_fnj iX h0 h1
  obtain ⟨a, ia, -⟩ : ∃ a, Is (fnjOf p - y) a ∧ True := ⟨_, ⟨hfin, rfl⟩, trivial⟩
  rw [ia.abs.lt_iff iw] at hf
  have hw := abs_le.1 hw
  rw [hρ] at hw
  obtain ⟨f', jf', jd⟩ := inv_sub iy hfin
  obtain rfl := jf'.unique jf
  obtain rfl := ia.unique jd
  have hd : |f' - v| ≤ 0.00200001 := by
    have hb := bound_of_rnd (v := f' - v) (n := 1) (by norm_num) (by push_cast; norm_num at *; linarith)
    have hr := (rnd_ok (v := f' - v) (hb.trans (by norm_num))).2
    rw [hρ] at hr
    have hr := abs_le.1 hr
    have h5 := abs_le.1 hf.le
    rw [abs_le]
    generalize rnd (f' - v) = z at *
    norm_num at *
    constructor <;> linarith
  have ef := abs_le.1 ef
  have hd := abs_le.1 hd
  have hl := lstarFromY_lipschitz (wlum X) v
  have e : |wlum X - v| ≤ 0.0021 := by
    rw [abs_le]; norm_num at *; constructor <;> linarith
  have h2 := abs_le.1 hc
  have h3 := abs_le.1 (hl.trans (mul_le_mul_of_nonneg_left e (by norm_num)))
  rw [abs_le]
  norm_num at *
  constructor <;> linarith

end Mcu.Lemmas
