import Verif.Lemmas.WuCut

/-! The box loop of the Wu quantizer splits greedily. -/

namespace Mcu.QuantizerWu

open Mcu.Spec Mcu.Props ColorUtils

/-! ### Spread and colours -/

/-- The channels of a colour. -/
def chan (p : Int) : Int × Int × Int := (redFromArgb p, greenFromArgb p, blueFromArgb p)

/-- The box contains different colours. -/
def Multi (pixels : List Int) (c : Box) : Prop :=
  ∃ p ∈ pixelsIn pixels c, ∃ q ∈ pixelsIn pixels c, chan p ≠ chan q

theorem sum_nonneg_zero {α : Type} (l : List α) (f : α → ℝ) (h : ∀ x, 0 ≤ f x) :
    0 ≤ (l.map f).sum ∧ ((l.map f).sum = 0 → ∀ x ∈ l, f x = 0) := by
  induction l with
  | nil => simp
  | cons x rest ih =>
    rw [List.map_cons, List.sum_cons]
    have hx := h x
    refine ⟨add_nonneg hx ih.1, fun h0 y hy => ?_⟩
    rcases List.mem_cons.1 hy with rfl | hy
    · linarith [ih.1]
    · exact ih.2 (by linarith [ih.1]) y hy

theorem spread_nonneg (l : List Int) : 0 ≤ spread l :=
  (sum_nonneg_zero l _ fun p => by positivity).1

theorem spread_pos {l : List Int} {p q : Int} (hp : p ∈ l) (hq : q ∈ l) (h : chan p ≠ chan q) : 0 < spread l := by
  refine lt_of_le_of_ne (spread_nonneg l) fun h0 => h ?_
  have hz := (sum_nonneg_zero l (fun p => ((redFromArgb p : ℝ) - meanChan redFromArgb l) ^ 2 +
    ((greenFromArgb p : ℝ) - meanChan greenFromArgb l) ^ 2 + ((blueFromArgb p : ℝ) - meanChan blueFromArgb l) ^ 2)
    fun p => by positivity).2 h0.symm
  have key : ∀ x ∈ l, (redFromArgb x : ℝ) = meanChan redFromArgb l ∧ (greenFromArgb x : ℝ) = meanChan greenFromArgb l ∧
      (blueFromArgb x : ℝ) = meanChan blueFromArgb l := by
    intro x hx
    have hx := hz x hx
    have a := sq_nonneg ((redFromArgb x : ℝ) - meanChan redFromArgb l)
    have b := sq_nonneg ((greenFromArgb x : ℝ) - meanChan greenFromArgb l)
    have c := sq_nonneg ((blueFromArgb x : ℝ) - meanChan blueFromArgb l)
    refine ⟨?_, ?_, ?_⟩ <;> refine sub_eq_zero.1 (pow_eq_zero_iff (two_ne_zero)|>.1 ?_) <;> linarith
  obtain ⟨p1, p2, p3⟩ := key p hp
  obtain ⟨q1, q2, q3⟩ := key q hq
  unfold chan
  rw [show redFromArgb p = redFromArgb q by exact_mod_cast p1.trans q1.symm,
    show greenFromArgb p = greenFromArgb q by exact_mod_cast p2.trans q2.symm,
    show blueFromArgb p = blueFromArgb q by exact_mod_cast p3.trans q3.symm]

theorem mean_const (w : Int → Int) (l : List Int) (v : Int) (h : ∀ p ∈ l, w p = v) (hl : l ≠ []) : meanChan w l = v := by
  have : (l.map w).sum = v * l.length := by
    clear hl
    induction l with
    | nil => simp
    | cons x rest ih =>
      rw [List.map_cons, List.sum_cons, ih fun p hp => h p (List.mem_cons_of_mem _ hp), h x List.mem_cons_self,
        List.length_cons]
      push_cast; ring
  unfold meanChan
  rw [this]
  have hp : (0:ℝ) < l.length := by exact_mod_cast List.length_pos_iff.2 hl
  push_cast
  field_simp

theorem spread_zero {l : List Int} (h : ∀ p ∈ l, ∀ q ∈ l, chan p = chan q) : spread l = 0 := by
  rcases l with _ | ⟨x, rest⟩
  · rfl
  · have hx : ∀ p ∈ x :: rest, chan p = chan x := fun p hp => h p hp x List.mem_cons_self
    unfold chan at hx
    simp only [Prod.mk.injEq] at hx
    have hne : x :: rest ≠ [] := by simp
    unfold spread
    rw [mean_const redFromArgb _ _ (fun p hp => (hx p hp).1) hne,
      mean_const greenFromArgb _ _ (fun p hp => (hx p hp).2.1) hne,
      mean_const blueFromArgb _ _ (fun p hp => (hx p hp).2.2) hne]
    apply List.sum_eq_zero
    intro y hy
    obtain ⟨p, hp, rfl⟩ := List.mem_map.1 hy
    obtain ⟨h1, h2, h3⟩ := hx p hp
    rw [h1, h2, h3]
    simp

theorem rank_pos_iff (pixels : List Int) (c : Box) : 0 < rank pixels c ↔ Multi pixels c := by
  unfold rank
  rw [Int.ceil_pos]
  constructor
  · intro h
    by_contra hm
    unfold Multi at hm
    push Not at hm
    rw [spread_zero fun p hp q hq => hm p hp q hq] at h
    exact lt_irrefl _ h
  · rintro ⟨p, hp, q, hq, h⟩
    exact spread_pos hp hq h

theorem rank_nonneg (pixels : List Int) (c : Box) : 0 ≤ rank pixels c := Int.ceil_nonneg (spread_nonneg _)

theorem splittable_multi {pixels : List Int} {c : Box} (h : Splittable pixels c) : Multi pixels c := by
  obtain ⟨c1, c2, hc, h1, h2⟩ := h
  obtain ⟨p, hp⟩ := List.exists_mem_of_ne_nil _ h1
  obtain ⟨q, hq⟩ := List.exists_mem_of_ne_nil _ h2
  obtain ⟨d, i, l1, l2, rfl, rfl⟩ := (cutOf_iff _ _ _).1 hc
  obtain ⟨p1, p2, p3⟩ := mem_pixelsIn.1 hp
  obtain ⟨q1, q2, q3⟩ := mem_pixelsIn.1 hq
  refine ⟨p, mem_pixelsIn.2 ⟨p1, p2, (inBox_split c d i ⟨l1, l2⟩ p).1.2 (Or.inl p3)⟩, q,
    mem_pixelsIn.2 ⟨q1, q2, (inBox_split c d i ⟨l1, l2⟩ q).1.2 (Or.inr q3)⟩, ?_⟩
  unfold chan
  intro he
  simp only [Prod.mk.injEq] at he
  obtain ⟨e1, e2, e3⟩ := he
  cases d <;> simp only [InBox, withVol, lower, upper] at p3 q3 <;> rw [e1, e2, e3] at p3 <;> omega

/-- A box made by a cut that can be cut again has more than one cell. -/
theorem splittable_vol {pixels : List Int} {c : Box} (h : Splittable pixels c) : 1 < (withVol c).vol := by
  obtain ⟨c1, c2, hc, h1, h2⟩ := h
  obtain ⟨p, hp⟩ := List.exists_mem_of_ne_nil _ h1
  obtain ⟨d, i, l1, l2, rfl, rfl⟩ := (cutOf_iff _ _ _).1 hc
  have hb := (inBox_split c d i ⟨l1, l2⟩ p).1.2 (Or.inl (mem_pixelsIn.1 hp).2.2)
  unfold InBox at hb
  have key : ∀ a b e : Int, 1 ≤ a → 1 ≤ b → 1 ≤ e → (2 ≤ a ∨ 2 ≤ b ∨ 2 ≤ e) → 1 < a * b * e := by
    intro a b e ha hb he h
    have hab : 1 ≤ a * b := by nlinarith
    rcases h with h | h | h
    · nlinarith
    · nlinarith
    · nlinarith
  show 1 < (c.r1 - c.r0) * (c.g1 - c.g0) * (c.b1 - c.b0)
  refine key _ _ _ (by omega) (by omega) (by omega) ?_
  cases d <;> simp only [lo, hi] at l1 l2 <;> omega

theorem unused_not (pixels : List Int) : pixelsIn pixels ({} : Box) = [] := by
  unfold pixelsIn
  rw [List.filter_eq_nil_iff]
  intro p _
  have : ¬ InBox ({} : Box) p := by unfold InBox; simp only; omega
  simp [this]

theorem not_splittable_of_empty {pixels : List Int} {c : Box} (h : pixelsIn pixels c = []) : ¬ Splittable pixels c := by
  intro hs
  obtain ⟨p, hp, -⟩ := splittable_multi hs
  rw [h] at hp
  cases hp

/-! ### What the loop needs from the arithmetic -/

/-- The recorded spreads are exact integers, and a cut is found if there is one. -/
structure ExactArith {F : Type} [Fl F] (isInt : F → Int → Prop) (split : Box → Box → Box → Prop) (t : Tables F)
    (pixels : List Int) : Prop where
  zero : isInt 0.0 0
  lt : ∀ {v w : F} {a b : Int}, isInt v a → isInt w b → (v < w ↔ a < b)
  le : ∀ {v w : F} {a b : Int}, isInt v a → isInt w b → (v ≤ w ↔ a ≤ b)
  cutNone : ∀ {c : Box}, Proper c → cut t c = none → ¬ Splittable pixels c
  cutSome : ∀ {c c1 c2 : Box}, Proper c → cut t c = some (c1, c2) → split c c1 c2 ∧ Split pixels c c1 c2
  recorded : ∀ {c : Box}, Proper c → pixelsIn pixels c ≠ [] →
    ∃ v, recorded t c = some v ∧ isInt v (if c.vol > 1 then rank pixels c else 0)

section
variable {F : Type} [Fl F] {isInt : F → Int → Prop} {split : Box → Box → Box → Prop} {t : Tables F} {pixels : List Int}

theorem argmax_best (ex : ExactArith isInt split t pixels) (vv : List F) (z : Nat → Int) (i : Nat)
    (hz : ∀ j, j ≤ i → isInt (vv.getD j 0.0) (z j)) :
    (argmax vv i).1 ≤ i ∧ isInt (argmax vv i).2 (z (argmax vv i).1) ∧ ∀ j, j ≤ i → z j ≤ z (argmax vv i).1 := by
  have key : ∀ (l : List Nat) (best : Nat × F), (∀ j ∈ l, j ≤ i) → best.1 ≤ i → isInt best.2 (z best.1) →
      let r := l.foldl (fun (best : Nat × F) j =>
        let v := vv.getD j 0.0
        if v > best.2 then (j, v) else best) best
      r.1 ≤ i ∧ isInt r.2 (z r.1) ∧ z best.1 ≤ z r.1 ∧ ∀ j ∈ l, z j ≤ z r.1 := by
    intro l
    induction l with
    | nil => intro best _ h1 h2; exact ⟨h1, h2, le_refl _, by simp⟩
    | cons x rest ih =>
      intro best hl h1 h2
      have hx := hl x List.mem_cons_self
      have hr : ∀ j ∈ rest, j ≤ i := fun j hj => hl j (List.mem_cons_of_mem _ hj)
      simp only [List.foldl_cons]
      by_cases hb : vv.getD x 0.0 > best.2
      · rw [if_pos hb]
        obtain ⟨r1, r2, r3, r4⟩ := ih (x, vv.getD x 0.0) hr hx (hz x hx)
        have hlt := (ex.lt h2 (hz x hx)).1 hb
        refine ⟨r1, r2, hlt.le.trans r3, fun j hj => ?_⟩
        rcases List.mem_cons.1 hj with rfl | hj
        · exact r3
        · exact r4 j hj
      · rw [if_neg hb]
        obtain ⟨r1, r2, r3, r4⟩ := ih best hr h1 h2
        have hle := not_lt.1 fun h => hb ((ex.lt h2 (hz x hx)).2 h)
        refine ⟨r1, r2, r3, fun j hj => ?_⟩
        rcases List.mem_cons.1 hj with rfl | hj
        · exact hle.trans r3
        · exact r4 j hj
  obtain ⟨r1, r2, r3, r4⟩ := key ((List.range i).map (· + 1)) (0, vv.getD 0 0.0) (by
    intro j hj
    obtain ⟨k, hk, rfl⟩ := List.mem_map.1 hj
    have := List.mem_range.1 hk
    omega) (Nat.zero_le _) (hz 0 (Nat.zero_le _))
  refine ⟨r1, r2, fun j hj => ?_⟩
  rcases Nat.eq_zero_or_pos j with rfl | hp
  · exact r3
  · exact r4 j (List.mem_map.2 ⟨j - 1, List.mem_range.2 (by omega), by omega⟩)

/-! ### The invariant -/

theorem countP_le {α : Type} (l : List α) (p q : α → Bool) (h : ∀ x ∈ l, p x = true → q x = true) :
    l.countP p ≤ l.countP q := by
  induction l with
  | nil => simp
  | cons x rest ih =>
    have hr := ih fun y hy => h y (List.mem_cons_of_mem _ hy)
    have hx := h x List.mem_cons_self
    rw [List.countP_cons, List.countP_cons]
    by_cases hp : p x = true
    · rw [if_pos hp, if_pos (hx hp)]; omega
    · rw [if_neg hp]; omega

theorem countP_lt {α : Type} (l : List α) (p q : α → Bool) (h : ∀ x ∈ l, p x = true → q x = true) (a : α) (ha : a ∈ l)
    (hq : q a = true) (hp : ¬ p a = true) : l.countP p < l.countP q := by
  induction l with
  | nil => cases ha
  | cons x rest ih =>
    have hr := fun y hy => h y (List.mem_cons_of_mem _ hy)
    have hx := h x List.mem_cons_self
    rw [List.countP_cons, List.countP_cons]
    rcases List.mem_cons.1 ha with rfl | ha
    · rw [if_neg hp, if_pos hq]
      have := countP_le rest p q hr
      omega
    · have := ih hr ha
      by_cases hpx : p x = true
      · rw [if_pos hpx, if_pos (hx hpx)]; omega
      · rw [if_neg hpx]; omega

/-- The boxes that contain opaque pixels. -/
def nonEmpty (pixels : List Int) (cubes : List Box) : List Box := cubes.filter fun c => decide (pixelsIn pixels c ≠ [])

open Classical in
/-- The number of boxes found to be blocked. -/
noncomputable def blockedCount (pixels : List Int) (cubes : List Box) (n : Nat) (z : Nat → Int) : Nat :=
  (List.range n).countP fun j => decide (z j = 0 ∧ Blocked pixels (cubes.getD j {}))

structure LoopInv (isInt : F → Int → Prop) (split : Box → Box → Box → Prop) (pixels : List Int) (n i next : Nat)
    (vv : List F) (cubes : List Box) (z : Nat → Int) : Prop where
  one : 1 ≤ i
  nextLt : next < i
  cubesLen : cubes.length = n
  vvLen : vv.length = n
  part : Partition cubes
  unused : UnusedFrom cubes i
  ints : ∀ j, isInt (vv.getD j 0.0) (z j)
  known : ∀ j, j ≠ next → Splittable pixels (cubes.getD j {}) → z j = rank pixels (cubes.getD j {})
  multi : ∀ j, 0 < z j → Multi pixels (cubes.getD j {})
  best : Splittable pixels (cubes.getD next {}) → ∀ j, Splittable pixels (cubes.getD j {}) →
    rank pixels (cubes.getD j {}) ≤ rank pixels (cubes.getD next {})
  chosen : (i = 1 ∧ ∀ j, z j = 0) ∨ 0 < z next
  greedy : ∃ boxes, Greedy pixels split boxes ∧ boxes.Perm (nonEmpty pixels cubes) ∧
    i ≤ boxes.length + blockedCount pixels cubes n z

/-- What the loop has achieved in the end. -/
def LoopEnd (split : Box → Box → Box → Prop) (pixels : List Int) (n : Nat) (cubes : List Box) : Prop :=
  ∃ boxes, Greedy pixels split boxes ∧ boxes.Perm (nonEmpty pixels cubes) ∧
    ((∀ c ∈ cubes, ¬ Splittable pixels c) ∨
      open Classical in n ≤ boxes.length + boxes.countP fun c => decide (Blocked pixels c))

theorem getD_set_self {α : Type} (l : List α) (i : Nat) (a d : α) (h : i < l.length) : (l.set i a).getD i d = a := by
  rw [List.getD_eq_getElem?_getD, List.getElem?_set_self h]; rfl

theorem getD_default {α : Type} (l : List α) (i : Nat) (d : α) (h : l.length ≤ i) : l.getD i d = d := by
  rw [List.getD_eq_getElem?_getD, List.getElem?_eq_none h]; rfl

theorem blocked_le (cubes boxes : List Box) (n : Nat) (z : Nat → Int) (hl : cubes.length = n)
    (hb : boxes.Perm (nonEmpty pixels cubes)) :
    open Classical in blockedCount pixels cubes n z ≤ boxes.countP fun c => decide (Blocked pixels c) := by
  classical
  rw [hb.countP_eq]
  unfold nonEmpty
  rw [List.countP_filter]
  have hc : cubes = (List.range n).map fun j => cubes.getD j {} := by
    apply List.ext_getElem
    · simp [hl]
    · intro j h1 h2
      simp [h1]
  conv_rhs => rw [hc]
  rw [List.countP_map]
  unfold blockedCount
  refine countP_le _ _ _ fun j _ hj => ?_
  simp only [decide_eq_true_eq] at hj
  simp only [Function.comp, Bool.and_eq_true, decide_eq_true_eq]
  refine ⟨hj.2, ?_⟩
  obtain ⟨-, -, p, hp, -⟩ := hj
  exact List.ne_nil_of_mem hp

/-- No box can be split when the largest recorded spread is not positive. -/
theorem none_left {i : Nat} {cubes : List Box} {z : Nat → Int} (hu : UnusedFrom cubes i) (b : Nat)
    (hk : ∀ j, Splittable pixels (cubes.getD j {}) → z j = rank pixels (cubes.getD j {}))
    (hb : ∀ j, j < i → z j ≤ z b) (h0 : z b ≤ 0) : ∀ c ∈ cubes, ¬ Splittable pixels c := by
  intro c hc hs
  obtain ⟨j, hj, rfl⟩ := List.mem_iff_getElem.1 hc
  have he : cubes.getD j {} = cubes[j] := by
    rw [List.getD_eq_getElem?_getD, List.getElem?_eq_getElem hj]; rfl
  rw [← he] at hs
  have hji : j < i := by
    by_contra hge
    rw [hu j (not_lt.1 hge) hj] at hs
    exact not_splittable_of_empty (unused_not pixels) hs
  have h1 := hk j hs
  have h2 := hb j hji
  have h3 := (rank_pos_iff pixels _).2 (splittable_multi hs)
  omega

/-- Replacing a box by its first part and an unused box by the second. -/
theorem perm_cut (cubes : List Box) (next i : Nat) (c1 c2 : Box) (hn : next < i) (hi : i < cubes.length)
    (hu : cubes.getD i {} = {}) (h0 : pixelsIn pixels (cubes.getD next {}) ≠ []) (h1 : pixelsIn pixels c1 ≠ [])
    (h2 : pixelsIn pixels c2 ≠ []) :
    (nonEmpty pixels cubes).Perm (cubes.getD next {} :: nonEmpty pixels (cubes.eraseIdx next)) ∧
    (nonEmpty pixels ((cubes.set next c1).set i c2)).Perm (c1 :: c2 :: nonEmpty pixels (cubes.eraseIdx next)) := by
  have hnl : next < cubes.length := lt_trans hn hi
  have hg : cubes.getD next {} = cubes[next] := by
    rw [List.getD_eq_getElem?_getD, List.getElem?_eq_getElem hnl]; rfl
  have e1 : cubes.Perm (cubes[next] :: cubes.eraseIdx next) := (List.getElem_cons_eraseIdx_perm hnl).symm
  have e2 : (cubes.set next c1).Perm (c1 :: cubes.eraseIdx next) := List.set_perm_cons_eraseIdx hnl c1
  have hi' : i < (cubes.set next c1).length := by rw [List.length_set]; exact hi
  have e3 : (cubes.set next c1).Perm ((cubes.set next c1)[i] :: (cubes.set next c1).eraseIdx i) :=
    (List.getElem_cons_eraseIdx_perm hi').symm
  have e4 : ((cubes.set next c1).set i c2).Perm (c2 :: (cubes.set next c1).eraseIdx i) := List.set_perm_cons_eraseIdx hi' c2
  have e5 : (cubes.set next c1)[i] = ({} : Box) := by
    rw [List.getElem_set_ne (by omega)]
    rw [List.getD_eq_getElem?_getD, List.getElem?_eq_getElem hi] at hu
    exact hu
  have e6 := (e2.symm.trans e3).filter fun c => decide (pixelsIn pixels c ≠ [])
  rw [List.filter_cons_of_pos (by simpa using h1), e5, List.filter_cons_of_neg (by simpa using unused_not pixels)] at e6
  unfold nonEmpty
  constructor
  · have := e1.filter fun c => decide (pixelsIn pixels c ≠ [])
    rw [List.filter_cons_of_pos (by rw [← hg]; simpa using h0)] at this
    rw [hg]
    exact this
  · have := e4.filter fun c => decide (pixelsIn pixels c ≠ [])
    rw [List.filter_cons_of_pos (by simpa using h2)] at this
    exact (this.trans (e6.symm.cons c2)).trans (List.Perm.swap _ _ _)

theorem getD_lt_of_splittable {cubes : List Box} {j : Nat} (hs : Splittable pixels (cubes.getD j {})) :
    j < cubes.length := by
  by_contra h
  rw [getD_default _ _ _ (not_lt.1 h)] at hs
  exact not_splittable_of_empty (unused_not pixels) hs

theorem getD_set_int (vv : List F) (k : Nat) (v : F) (a : Int) (z : Nat → Int)
    (hk : k < vv.length) (hz : ∀ j, isInt (vv.getD j 0.0) (z j)) (hv : isInt v a) :
    ∀ j, isInt ((vv.set k v).getD j 0.0) (if j = k then a else z j) := by
  intro j
  by_cases h : j = k
  · subst h
    rw [if_pos rfl, getD_set_self _ _ _ _ hk]
    exact hv
  · rw [if_neg h, getD_set_ne _ _ _ _ _ (fun e => h e.symm)]
    exact hz j

/-- One round without a cut. -/
theorem loop_fail (ex : ExactArith isInt split t pixels) {n i next : Nat} {vv : List F} {cubes : List Box} {z : Nat → Int}
    (inv : LoopInv isInt split pixels n i next vv cubes z) (hin : i < n) (hcut : cut t (cubes.getD next {}) = none) :
    ((argmax (vv.set next 0.0) (i - 1)).2 ≤ 0.0 → LoopEnd split pixels n cubes) ∧
    (¬ (argmax (vv.set next 0.0) (i - 1)).2 ≤ 0.0 →
      ∃ z', LoopInv isInt split pixels n (i + 1) (argmax (vv.set next 0.0) (i - 1)).1 (vv.set next 0.0) cubes z') := by
  classical
  have hone := inv.one
  have hnext := inv.nextLt
  have hproper := inv.part.1 _ (getD_mem cubes next {} (by rw [inv.cubesLen]; omega))
  have hns := ex.cutNone hproper hcut
  set z' : Nat → Int := fun j => if j = next then 0 else z j with hz'
  have hints := getD_set_int vv next 0.0 0 z (by rw [inv.vvLen]; omega) inv.ints ex.zero
  obtain ⟨b1, b2, b3⟩ := argmax_best ex (vv.set next 0.0) z' (i - 1) (fun j _ => hints j)
  set best := argmax (vv.set next 0.0) (i - 1) with hbest
  have hknown : ∀ j, Splittable pixels (cubes.getD j {}) → z' j = rank pixels (cubes.getD j {}) := by
    intro j hs
    by_cases h : j = next
    · subst h; exact absurd hs hns
    · simp only [hz', if_neg h]; exact inv.known j h hs
  have hu : UnusedFrom cubes i := inv.unused
  obtain ⟨boxes, hg, hperm, hcount⟩ := inv.greedy
  have hle := ex.le b2 ex.zero
  constructor
  · intro h0
    exact ⟨boxes, hg, hperm, Or.inl (none_left hu best.1 hknown (fun j hj => b3 j (by omega)) (hle.1 h0))⟩
  · intro h0
    have hpos : 0 < z' best.1 := not_le.1 fun h => h0 (hle.2 h)
    have hold : 0 < z next := by
      rcases inv.chosen with ⟨-, hz⟩ | h
      · exfalso
        have hb0 := hz best.1
        simp only [hz'] at hpos
        split_ifs at hpos
        · omega
        · omega
      · exact h
    refine ⟨z', ⟨by omega, by omega, inv.cubesLen, by rw [List.length_set]; exact inv.vvLen, inv.part,
      fun j hj hjl => hu j (by omega) hjl, hints, fun j _ hs => hknown j hs, ?_, ?_, Or.inr hpos,
      boxes, hg, hperm, ?_⟩⟩
    · intro j hj
      by_cases h : j = next
      · simp only [hz', if_pos h] at hj; omega
      · simp only [hz', if_neg h] at hj; exact inv.multi j hj
    · intro hs j hsj
      rw [← hknown _ hs, ← hknown _ hsj]
      have hjl := getD_lt_of_splittable hsj
      have hji : j < i := by
        by_contra hge
        rw [hu j (not_lt.1 hge) hjl] at hsj
        exact not_splittable_of_empty (unused_not pixels) hsj
      exact b3 j (by omega)
    · have : blockedCount pixels cubes n z < blockedCount pixels cubes n z' := by
        unfold blockedCount
        refine countP_lt _ _ _ ?_ next (List.mem_range.2 (by omega)) ?_ ?_
        · intro j _ hj
          simp only [decide_eq_true_eq] at hj ⊢
          refine ⟨?_, hj.2⟩
          by_cases h : j = next
          · simp [hz', h]
          · simp [hz', h, hj.1]
        · simp only [decide_eq_true_eq]
          exact ⟨by simp [hz'], hns, inv.multi next hold⟩
        · simp only [decide_eq_true_eq, not_and]
          intro h; omega
      omega

/-- One round with a cut. -/
theorem loop_cut (ex : ExactArith isInt split t pixels) {n i next : Nat} {vv : List F} {cubes : List Box} {z : Nat → Int}
    (inv : LoopInv isInt split pixels n i next vv cubes z) (hin : i < n) {c1 c2 : Box}
    (hcut : cut t (cubes.getD next {}) = some (c1, c2)) :
    ∃ v1 v2, recorded t c1 = some v1 ∧ recorded t c2 = some v2 ∧
    ((argmax ((vv.set next v1).set i v2) i).2 ≤ 0.0 → LoopEnd split pixels n ((cubes.set next c1).set i c2)) ∧
    (¬ (argmax ((vv.set next v1).set i v2) i).2 ≤ 0.0 →
      ∃ z', LoopInv isInt split pixels n (i + 1) (argmax ((vv.set next v1).set i v2) i).1 ((vv.set next v1).set i v2)
        ((cubes.set next c1).set i c2) z') := by
  classical
  have hone := inv.one
  have hnext := inv.nextLt
  have hcl := inv.cubesLen
  have hvl := inv.vvLen
  have hproper := inv.part.1 _ (getD_mem cubes next {} (by omega))
  obtain ⟨hsplit, hS⟩ := ex.cutSome hproper hcut
  obtain ⟨hcutof, hn1, hn2⟩ := hS
  obtain ⟨d, p, l1, l2, e1, e2⟩ := (cutOf_iff _ _ _).1 hcutof
  have hspl : Splittable pixels (cubes.getD next {}) := ⟨c1, c2, hcutof, hn1, hn2⟩
  have hunused := inv.unused i (le_refl _) (by omega)
  obtain ⟨part', unused'⟩ := partition_cut inv.part hnext (by omega) inv.unused ⟨l1, l2⟩
  rw [← e1, ← e2] at part' unused'
  obtain ⟨pp1, pp2⟩ := proper_split hproper d p ⟨l1, l2⟩
  rw [← e1] at pp1
  rw [← e2] at pp2
  obtain ⟨v1, hv1, iv1⟩ := ex.recorded pp1 hn1
  obtain ⟨v2, hv2, iv2⟩ := ex.recorded pp2 hn2
  refine ⟨v1, v2, hv1, hv2, ?_⟩
  set a1 : Int := if c1.vol > 1 then rank pixels c1 else 0 with ha1
  set a2 : Int := if c2.vol > 1 then rank pixels c2 else 0 with ha2
  set z' : Nat → Int := fun j => if j = i then a2 else if j = next then a1 else z j with hz'
  have hints := getD_set_int (vv.set next v1) i v2 a2 _ (by rw [List.length_set]; omega)
    (getD_set_int vv next v1 a1 z (by omega) inv.ints iv1) iv2
  obtain ⟨b1, b2, b3⟩ := argmax_best ex ((vv.set next v1).set i v2) z' i (fun j _ => hints j)
  set best := argmax ((vv.set next v1).set i v2) i with hbest
  set cubes' := (cubes.set next c1).set i c2 with hcubes'
  have gi : cubes'.getD i {} = c2 := getD_set_self _ _ _ _ (by rw [List.length_set]; omega)
  have gn : cubes'.getD next {} = c1 := by
    rw [hcubes', getD_set_ne _ _ _ _ _ (by omega), getD_set_self _ _ _ _ (by omega)]
  have go : ∀ j, j ≠ i → j ≠ next → cubes'.getD j {} = cubes.getD j {} := by
    intro j hj hj'
    rw [hcubes', getD_set_ne _ _ _ _ _ (fun e => hj e.symm), getD_set_ne _ _ _ _ _ (fun e => hj' e.symm)]
  have rec1 : Splittable pixels c1 → a1 = rank pixels c1 := by
    intro hs
    have hv : 1 < c1.vol := by
      have := splittable_vol hs
      rw [e1] at this ⊢
      exact this
    rw [ha1, if_pos hv]
  have rec2 : Splittable pixels c2 → a2 = rank pixels c2 := by
    intro hs
    have hv : 1 < c2.vol := by
      have := splittable_vol hs
      rw [e2] at this ⊢
      exact this
    rw [ha2, if_pos hv]
  have hknown : ∀ j, Splittable pixels (cubes'.getD j {}) → z' j = rank pixels (cubes'.getD j {}) := by
    intro j hs
    by_cases hj : j = i
    · subst hj
      rw [gi] at hs ⊢
      simp only [hz', if_true]
      exact rec2 hs
    · by_cases hj' : j = next
      · subst hj'
        rw [gn] at hs ⊢
        simp only [hz', if_neg hj, if_true]
        exact rec1 hs
      · rw [go j hj hj'] at hs ⊢
        simp only [hz', if_neg hj, if_neg hj']
        exact inv.known j hj' hs
  obtain ⟨boxes, hg, hperm, hcount⟩ := inv.greedy
  have h0 : pixelsIn pixels (cubes.getD next {}) ≠ [] := by
    obtain ⟨q, hq, -⟩ := splittable_multi hspl
    exact List.ne_nil_of_mem hq
  obtain ⟨q1, q2⟩ := perm_cut (pixels := pixels) cubes next i c1 c2 hnext (by omega) hunused h0 hn1 hn2
  have hg' : Greedy pixels split (c1 :: c2 :: nonEmpty pixels (cubes.eraseIdx next)) := by
    refine Greedy.step hg (hperm.trans q1) hsplit ?_
    intro o ho hso
    have ho' : o ∈ cubes := List.mem_of_mem_eraseIdx (List.mem_of_mem_filter ho)
    obtain ⟨j, hj, rfl⟩ := List.mem_iff_getElem.1 ho'
    have he : cubes.getD j {} = cubes[j] := by
      rw [List.getD_eq_getElem?_getD, List.getElem?_eq_getElem hj]; rfl
    rw [← he] at hso ⊢
    exact inv.best hspl j hso
  have hlen : (c1 :: c2 :: nonEmpty pixels (cubes.eraseIdx next)).length = boxes.length + 1 := by
    rw [(hperm.trans q1).length_eq]; simp
  have hle := ex.le b2 ex.zero
  constructor
  · intro hb0
    exact ⟨_, hg', q2.symm, Or.inl (none_left unused' best.1 hknown (fun j hj => b3 j (by omega)) (hle.1 hb0))⟩
  · intro hb0
    have hpos : 0 < z' best.1 := not_le.1 fun h => hb0 (hle.2 h)
    refine ⟨z', ⟨by omega, by omega, by rw [hcubes', List.length_set, List.length_set]; exact hcl,
      by rw [List.length_set, List.length_set]; exact hvl, part', unused', hints, fun j _ hs => hknown j hs, ?_, ?_,
      Or.inr hpos, _, hg', q2.symm, ?_⟩⟩
    · intro j hj
      by_cases hji : j = i
      · subst hji
        simp only [hz', if_true, ha2] at hj
        rw [gi]
        split_ifs at hj
        · exact (rank_pos_iff _ _).1 hj
        · omega
      · by_cases hjn : j = next
        · subst hjn
          simp only [hz', if_neg hji, if_true, ha1] at hj
          rw [gn]
          split_ifs at hj
          · exact (rank_pos_iff _ _).1 hj
          · omega
        · simp only [hz', if_neg hji, if_neg hjn] at hj
          rw [go j hji hjn]
          exact inv.multi j hj
    · intro hs j hsj
      rw [← hknown _ hs, ← hknown _ hsj]
      have hjl := getD_lt_of_splittable hsj
      have hji : j < i + 1 := by
        by_contra hge
        rw [unused' j (not_lt.1 hge) hjl] at hsj
        exact not_splittable_of_empty (unused_not pixels) hsj
      exact b3 j (by omega)
    · have : blockedCount pixels cubes n z ≤ blockedCount pixels cubes' n z' := by
        unfold blockedCount
        refine countP_le _ _ _ ?_
        intro j _ hj
        simp only [decide_eq_true_eq] at hj ⊢
        have hji : j ≠ i := by
          rintro rfl
          rw [hunused] at hj
          obtain ⟨-, -, q, hq, -⟩ := hj
          rw [unused_not] at hq
          cases hq
        have hjn : j ≠ next := by
          rintro rfl
          exact hj.2.1 hspl
        rw [go j hji hjn]
        refine ⟨?_, hj.2⟩
        simp only [hz', if_neg hji, if_neg hjn]
        exact hj.1
      omega

/-- The whole loop. -/
theorem loop_end (ex : ExactArith isInt split t pixels) (n : Nat) (m : Nat) : ∀ (i next : Nat) (vv : List F)
    (cubes : List Box) (z : Nat → Int), i + m = n → LoopInv isInt split pixels n i next vv cubes z →
    ∃ cubes' k, boxLoop t n (List.range' i m) next vv cubes = some (cubes', k) ∧ LoopEnd split pixels n cubes' := by
  classical
  induction m with
  | zero =>
    intro i next vv cubes z hi inv
    obtain ⟨boxes, hg, hperm, hcount⟩ := inv.greedy
    refine ⟨cubes, n, rfl, boxes, hg, hperm, Or.inr ?_⟩
    have := blocked_le cubes boxes n z inv.cubesLen hperm
    omega
  | succ m ih =>
    intro i next vv cubes z hi inv
    rw [List.range'_succ]
    simp only [boxLoop]
    cases hcut : cut t (cubes.getD next {}) with
    | none =>
      simp only
      obtain ⟨f1, f2⟩ := loop_fail ex inv (by omega) hcut
      split_ifs with hb
      · exact ⟨_, _, rfl, f1 hb⟩
      · obtain ⟨z', inv'⟩ := f2 hb
        exact ih (i + 1) _ _ _ z' (by omega) inv'
    | some pr =>
      obtain ⟨c1, c2⟩ := pr
      obtain ⟨v1, v2, hv1, hv2, f1, f2⟩ := loop_cut ex inv (by omega) hcut
      simp only [hv1, hv2, Option.bind_eq_bind, Option.bind_some]
      split_ifs with hb
      · exact ⟨_, _, rfl, f1 hb⟩
      · obtain ⟨z', inv'⟩ := f2 hb
        exact ih (i + 1) _ _ _ z' (by omega) inv'

/-- The start of the loop, for an image with an opaque pixel. -/
theorem loop_start (ex : ExactArith isInt split t pixels) (n : Nat) (hn : 1 ≤ n)
    (hp : ∃ p ∈ pixels, alphaFromArgb p = 255) :
    LoopInv isInt split pixels n 1 0 (List.replicate n 0.0) (firstBox :: List.replicate (n - 1) {}) fun _ => 0 := by
  have hu : UnusedFrom (firstBox :: List.replicate (n - 1) {}) 1 := by
    intro j hj hjl
    obtain ⟨j', rfl⟩ : ∃ j', j = j' + 1 := ⟨j - 1, by omega⟩
    rw [List.getD_cons_succ, List.getD_eq_getElem?_getD, List.getElem?_replicate]
    split_ifs <;> rfl
  have hl : (firstBox :: List.replicate (n - 1) ({} : Box)).length = n := by simp; omega
  have h0 : ∀ j, Splittable pixels ((firstBox :: List.replicate (n - 1) {}).getD j {}) → j = 0 := by
    intro j hs
    by_contra hj
    rw [hu j (by omega) (getD_lt_of_splittable hs)] at hs
    exact not_splittable_of_empty (unused_not pixels) hs
  have hne : pixelsIn pixels firstBox ≠ [] := by
    obtain ⟨p, hp, ha⟩ := hp
    refine List.ne_nil_of_mem (mem_pixelsIn.2 ⟨hp, ha, ?_⟩)
    have := channel_range p
    unfold InBox firstBox maxIndex
    simp only
    omega
  refine ⟨le_refl _, by omega, hl, by simp, partition_first _, hu, ?_, ?_, ?_, ?_, Or.inl ⟨rfl, fun _ => rfl⟩,
    [firstBox], .start, ?_, by simp⟩
  · intro j
    rw [List.getD_eq_getElem?_getD, List.getElem?_replicate]
    split_ifs
    · exact ex.zero
    · exact ex.zero
  · exact fun j hj hs => absurd (h0 j hs) hj
  · intro j hj; omega
  · intro hs j hsj
    rw [h0 j hsj]
  · unfold nonEmpty
    rw [List.filter_cons_of_pos (by simpa using hne)]
    have : (List.replicate (n - 1) ({} : Box)).filter (fun c => decide (pixelsIn pixels c ≠ [])) = [] := by
      rw [List.filter_eq_nil_iff]
      intro c hc
      rw [List.eq_of_mem_replicate hc]
      simpa using unused_not pixels
    rw [this]

end

end Mcu.QuantizerWu
