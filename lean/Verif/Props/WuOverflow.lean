import Verif.Props.Wu

/-! Property C48: no integer overflow in the Wu quantizer for images up to 6 876 129 opaque pixels, and
overflow beyond. -/

namespace Mcu.Props

open Mcu.QuantizerWu Mcu.ColorUtils Mcu.Spec

/-- The value fits into `i64`. -/
def FitsI64 (x : Int) : Prop := -2 ^ 63 ≤ x ∧ x < 2 ^ 63

instance (x : Int) : Decidable (FitsI64 x) := by unfold FitsI64; infer_instance

/-- Number of opaque pixels. -/
def opaqueCount (pixels : List Int) : Int := (pixels.countP fun p => decide (alphaFromArgb p = 255) : Nat)

/-- The values of `volume` while it is computed (quantizer_wu.rs 368-377), first to last. -/
def volumeTrace (c : Box) (m : Array Int) : List Int :=
  let a := tget 0 m (getIndex c.r1 c.g1 c.b1)
  let b := tget 0 m (getIndex c.r1 c.g1 c.b0)
  let d := tget 0 m (getIndex c.r1 c.g0 c.b1)
  let e := tget 0 m (getIndex c.r1 c.g0 c.b0)
  let f := tget 0 m (getIndex c.r0 c.g1 c.b1)
  let g := tget 0 m (getIndex c.r0 c.g1 c.b0)
  let h := tget 0 m (getIndex c.r0 c.g0 c.b1)
  let i := tget 0 m (getIndex c.r0 c.g0 c.b0)
  [a, a - b, a - b - d, a - b - d + e, a - b - d + e - f, a - b - d + e - f + g, a - b - d + e - f + g + h,
    a - b - d + e - f + g + h - i]

theorem volumeTrace_last (c : Box) (m : Array Int) : (volumeTrace c m).getLast? = some (volume c m) := rfl

/-- The corners whose table entries `bottom` adds up, in the order of the source
(quantizer_wu.rs 379-400). -/
def bottomTrace (c : Box) (d : Direction) (m : Array Int) : List Int :=
  let v := fun r g b => tget 0 m (getIndex r g b)
  let steps := fun x y z w : Int => [-x, -x + y, -x + y + z, -x + y + z - w]
  match d with
  | .red => steps (v c.r0 c.g1 c.b1) (v c.r0 c.g1 c.b0) (v c.r0 c.g0 c.b1) (v c.r0 c.g0 c.b0)
  | .green => steps (v c.r1 c.g0 c.b1) (v c.r1 c.g0 c.b0) (v c.r0 c.g0 c.b1) (v c.r0 c.g0 c.b0)
  | .blue => steps (v c.r1 c.g1 c.b0) (v c.r1 c.g0 c.b0) (v c.r0 c.g1 c.b0) (v c.r0 c.g0 c.b0)

theorem bottomTrace_last (c : Box) (d : Direction) (m : Array Int) :
    (bottomTrace c d m).getLast? = some (bottom c d m) := by cases d <;> rfl

/-- Likewise for `top` (quantizer_wu.rs 402-423). -/
def topTrace (c : Box) (d : Direction) (p : Int) (m : Array Int) : List Int :=
  let v := fun r g b => tget 0 m (getIndex r g b)
  let steps := fun x y z w : Int => [x, x - y, x - y - z, x - y - z + w]
  match d with
  | .red => steps (v p c.g1 c.b1) (v p c.g1 c.b0) (v p c.g0 c.b1) (v p c.g0 c.b0)
  | .green => steps (v c.r1 p c.b1) (v c.r1 p c.b0) (v c.r0 p c.b1) (v c.r0 p c.b0)
  | .blue => steps (v c.r1 c.g1 p) (v c.r1 c.g0 p) (v c.r0 c.g1 p) (v c.r0 c.g0 p)

theorem topTrace_last (c : Box) (d : Direction) (p : Int) (m : Array Int) :
    (topTrace c d p m).getLast? = some (top c d p m) := by cases d <;> rfl

/-- The values while `x * x + y * y + z * z` is computed. -/
def squaresTrace (x y z : Int) : List Int := [x * x, y * y, z * z, x * x + y * y, x * x + y * y + z * z]

theorem pixelCount_le (pixels : List Int) (c : Box) : 0 ≤ pixelCount pixels c ∧ pixelCount pixels c ≤ opaqueCount pixels := by
  unfold pixelCount opaqueCount
  refine ⟨by omega, ?_⟩
  have : pixels.countP (fun p => decide (alphaFromArgb p = 255 ∧ InBox c p)) ≤
      pixels.countP fun p => decide (alphaFromArgb p = 255) :=
    List.countP_mono_left fun x _ h => by
      simp only [decide_eq_true_eq] at h ⊢; exact h.1
  omega

/-- All four integer tables hold values between 0 and 255 times the number of opaque pixels. -/
theorem corner_bounds {F : Type} [Fl F] {pixels : List Int} {entries : List (Int × Int)} (h : CountsOf pixels entries)
    {m : Array Int} (hm : m ∈ [(tablesOf F entries).weights, (tablesOf F entries).momentsR,
      (tablesOf F entries).momentsG, (tablesOf F entries).momentsB]) {r g b : Int} (hr : 0 ≤ r ∧ r ≤ 32)
    (hg : 0 ≤ g ∧ g ≤ 32) (hb : 0 ≤ b ∧ b ≤ 32) :
    0 ≤ tget 0 m (getIndex r g b) ∧ tget 0 m (getIndex r g b) ≤ 255 * opaqueCount pixels := by
  have key : ∀ (w : Int → Int), (∀ p, 0 ≤ w p ∧ w p ≤ 255) → ∀ (v : Int × Int → Int),
      (∀ e, v e = e.2 * w e.1) → Shows m (prefixSum (cellTotal v entries)) →
      0 ≤ tget 0 m (getIndex r g b) ∧ tget 0 m (getIndex r g b) ≤ 255 * opaqueCount pixels := by
    intro w hw v hv hs
    rw [hs.2 r g b hr.1 hr.2 hg.1 hg.2 hb.1 hb.2]
    have e : prefixSum (cellTotal v entries) r g b = pixelTotal w pixels { r1 := r, g1 := g, b1 := b } := by
      rw [← boxTotal_pixels h, ← boxTotal_eq w v hv]
      simp only [prefixSum, sumTo, cellSum]
    rw [e]
    obtain ⟨h1, h2⟩ := pixelTotal_bounds w hw pixels { r1 := r, g1 := g, b1 := b }
    have h3 := (pixelCount_le pixels { r1 := r, g1 := g, b1 := b }).2
    omega
  simp only [List.mem_cons, List.not_mem_nil, or_false] at hm
  rcases hm with e | e | e | e
  · exact key (fun _ => 1) (fun _ => by norm_num) _ (fun _ => (mul_one _).symm) (e ▸ tables_weights entries)
  · exact key _ (fun p => (channel_range p).1) _ (fun _ => mul_comm _ _) (e ▸ tables_red entries)
  · exact key _ (fun p => (channel_range p).2.1) _ (fun _ => mul_comm _ _) (e ▸ tables_green entries)
  · exact key _ (fun p => (channel_range p).2.2) _ (fun _ => mul_comm _ _) (e ▸ tables_blue entries)

/-- C48: in an image with at most 6 876 129 opaque pixels, every value while a volume, a bottom or a top
is computed, for every box inside colour space and every cut position, fits into `i64`. -/
theorem c48_volumes {F : Type} [Fl F] (pixels : List Int) (entries : List (Int × Int)) (h : CountsOf pixels entries)
    (hN : opaqueCount pixels ≤ 6876129) (c : Box) (hc : Proper c) (d : Direction) (p : Int) (hp : 0 ≤ p ∧ p ≤ 32)
    (m : Array Int) (hm : m ∈ [(tablesOf F entries).weights, (tablesOf F entries).momentsR,
      (tablesOf F entries).momentsG, (tablesOf F entries).momentsB]) :
    (∀ x ∈ volumeTrace c m, FitsI64 x) ∧ (∀ x ∈ bottomTrace c d m, FitsI64 x) ∧
    (∀ x ∈ topTrace c d p m, FitsI64 x) ∧ FitsI64 (bottom c d m + top c d p m) ∧
    FitsI64 (volume c m - (bottom c d m + top c d p m)) := by
  have key := fun r g b hr hg hb => corner_bounds h hm (r := r) (g := g) (b := b) hr hg hb
  obtain ⟨⟨r0, r1, r2⟩, ⟨g0, g1, g2⟩, b0, b1, b2⟩ := hc
  have hr0 : 0 ≤ c.r0 ∧ c.r0 ≤ 32 := by omega
  have hr1 : 0 ≤ c.r1 ∧ c.r1 ≤ 32 := by omega
  have hg0 : 0 ≤ c.g0 ∧ c.g0 ≤ 32 := by omega
  have hg1 : 0 ≤ c.g1 ∧ c.g1 ≤ 32 := by omega
  have hb0 : 0 ≤ c.b0 ∧ c.b0 ≤ 32 := by omega
  have hb1 : 0 ≤ c.b1 ∧ c.b1 ≤ 32 := by omega
  have k1 := key c.r1 c.g1 c.b1 hr1 hg1 hb1
  have k2 := key c.r1 c.g1 c.b0 hr1 hg1 hb0
  have k3 := key c.r1 c.g0 c.b1 hr1 hg0 hb1
  have k4 := key c.r1 c.g0 c.b0 hr1 hg0 hb0
  have k5 := key c.r0 c.g1 c.b1 hr0 hg1 hb1
  have k6 := key c.r0 c.g1 c.b0 hr0 hg1 hb0
  have k7 := key c.r0 c.g0 c.b1 hr0 hg0 hb1
  have k8 := key c.r0 c.g0 c.b0 hr0 hg0 hb0
  refine ⟨?_, ?_, ?_, ?_, ?_⟩
  · intro x hx
    simp only [volumeTrace, List.mem_cons, List.not_mem_nil, or_false] at hx
    unfold FitsI64
    omega
  · intro x hx
    cases d <;> simp only [bottomTrace, List.mem_cons, List.not_mem_nil, or_false] at hx <;>
      unfold FitsI64 <;> omega
  · intro x hx
    cases d
    · have q1 := key p c.g1 c.b1 hp hg1 hb1
      have q2 := key p c.g1 c.b0 hp hg1 hb0
      have q3 := key p c.g0 c.b1 hp hg0 hb1
      have q4 := key p c.g0 c.b0 hp hg0 hb0
      simp only [topTrace, List.mem_cons, List.not_mem_nil, or_false] at hx
      unfold FitsI64; omega
    · have q1 := key c.r1 p c.b1 hr1 hp hb1
      have q2 := key c.r1 p c.b0 hr1 hp hb0
      have q3 := key c.r0 p c.b1 hr0 hp hb1
      have q4 := key c.r0 p c.b0 hr0 hp hb0
      simp only [topTrace, List.mem_cons, List.not_mem_nil, or_false] at hx
      unfold FitsI64; omega
    · have q1 := key c.r1 c.g1 p hr1 hg1 hp
      have q2 := key c.r1 c.g0 p hr1 hg0 hp
      have q3 := key c.r0 c.g1 p hr0 hg1 hp
      have q4 := key c.r0 c.g0 p hr0 hg0 hp
      simp only [topTrace, List.mem_cons, List.not_mem_nil, or_false] at hx
      unfold FitsI64; omega
  · cases d
    · have q1 := key p c.g1 c.b1 hp hg1 hb1
      have q2 := key p c.g1 c.b0 hp hg1 hb0
      have q3 := key p c.g0 c.b1 hp hg0 hb1
      have q4 := key p c.g0 c.b0 hp hg0 hb0
      simp only [bottom, top]
      unfold FitsI64; omega
    · have q1 := key c.r1 p c.b1 hr1 hp hb1
      have q2 := key c.r1 p c.b0 hr1 hp hb0
      have q3 := key c.r0 p c.b1 hr0 hp hb1
      have q4 := key c.r0 p c.b0 hr0 hp hb0
      simp only [bottom, top]
      unfold FitsI64; omega
    · have q1 := key c.r1 c.g1 p hr1 hg1 hp
      have q2 := key c.r1 c.g0 p hr1 hg0 hp
      have q3 := key c.r0 c.g1 p hr0 hg1 hp
      have q4 := key c.r0 c.g0 p hr0 hg0 hp
      simp only [bottom, top]
      unfold FitsI64; omega
  · cases d
    · have q1 := key p c.g1 c.b1 hp hg1 hb1
      have q2 := key p c.g1 c.b0 hp hg1 hb0
      have q3 := key p c.g0 c.b1 hp hg0 hb1
      have q4 := key p c.g0 c.b0 hp hg0 hb0
      simp only [bottom, top, volume]
      unfold FitsI64; omega
    · have q1 := key c.r1 p c.b1 hr1 hp hb1
      have q2 := key c.r1 p c.b0 hr1 hp hb0
      have q3 := key c.r0 p c.b1 hr0 hp hb1
      have q4 := key c.r0 p c.b0 hr0 hp hb0
      simp only [bottom, top, volume]
      unfold FitsI64; omega
    · have q1 := key c.r1 c.g1 p hr1 hg1 hp
      have q2 := key c.r1 c.g0 p hr1 hg0 hp
      have q3 := key c.r0 c.g1 p hr0 hg1 hp
      have q4 := key c.r0 c.g0 p hr0 hg0 hp
      simp only [bottom, top, volume]
      unfold FitsI64; omega

theorem squares_fit {x y z : Int} (hx : 0 ≤ x ∧ x ≤ 255 * 6876129) (hy : 0 ≤ y ∧ y ≤ 255 * 6876129)
    (hz : 0 ≤ z ∧ z ≤ 255 * 6876129) : ∀ v ∈ squaresTrace x y z, FitsI64 v := by
  have sq : ∀ a : Int, 0 ≤ a ∧ a ≤ 255 * 6876129 → 0 ≤ a * a ∧ a * a ≤ (255 * 6876129) * (255 * 6876129) :=
    fun a ha => ⟨mul_nonneg ha.1 ha.1, mul_le_mul ha.2 ha.2 ha.1 (by norm_num)⟩
  have h1 := sq x hx
  have h2 := sq y hy
  have h3 := sq z hz
  norm_num at h1 h2 h3
  intro v hv
  simp only [squaresTrace, List.mem_cons, List.not_mem_nil, or_false] at hv
  unfold FitsI64
  omega

/-- C48: so do the sums of squares of the channel sums of any box: the numerators in the search for a
cut (of the half boxes) and in the variance. -/
theorem c48_squares {F : Type} [Fl F] (pixels : List Int) (entries : List (Int × Int)) (h : CountsOf pixels entries)
    (hN : opaqueCount pixels ≤ 6876129) (c : Box) (hc : Proper c) :
    let t : Tables F := computeMoments (constructHistogram entries)
    ∀ x ∈ squaresTrace (volume c t.momentsR) (volume c t.momentsG) (volume c t.momentsB), FitsI64 x := by
  intro t
  obtain ⟨-, h2, h3, h4⟩ := c45_volume (F := F) pixels entries h c hc
  have e2 : volume c t.momentsR = pixelTotal redFromArgb pixels c := h2
  have e3 : volume c t.momentsG = pixelTotal greenFromArgb pixels c := h3
  have e4 : volume c t.momentsB = pixelTotal blueFromArgb pixels c := h4
  rw [e2, e3, e4]
  have b := fun w hw => pixelTotal_bounds w hw pixels c
  have b1 := b _ fun p => (channel_range p).1
  have b2 := b _ fun p => (channel_range p).2.1
  have b3 := b _ fun p => (channel_range p).2.2
  have hcnt := pixelCount_le pixels c
  exact squares_fit (by omega) (by omega) (by omega)

/-! ### Building the tables

The loops that fill and cumulate the tables only add.  Run on numbers that remember an overflow, they
end without one, so no sum on the way overflows (every sum on the way enters a table entry). -/

/-- Numbers up to `M`, or an overflow. -/
inductive Cap (M : Nat)
  | ok (n : Fin (M + 1))
  | over

/-- A number, or the overflow mark if it is too large. -/
def cap (M n : Nat) : Cap M := if h : n < M + 1 then .ok ⟨n, h⟩ else .over

def Cap.add {M : Nat} : Cap M → Cap M → Cap M
  | .ok a, .ok b => cap M (a.1 + b.1)
  | _, _ => .over

theorem cap_ok {M n : Nat} (h : n < M + 1) : cap M n = .ok ⟨n, h⟩ := dif_pos h

theorem cap_over {M n : Nat} (h : ¬ n < M + 1) : cap M n = .over := dif_neg h

theorem cap_add (M a b : Nat) : cap M (a + b) = (cap M a).add (cap M b) := by
  by_cases ha : a < M + 1
  · by_cases hb : b < M + 1
    · rw [cap_ok ha, cap_ok hb]; rfl
    · rw [cap_ok ha, cap_over hb, cap_over (by omega)]; rfl
  · rw [cap_over ha, cap_over (n := a + b) (by omega)]
    cases cap M b <;> rfl

theorem cap_surjective {M : Nat} (x : Cap M) : ∃ n, x = cap M n := by
  cases x with
  | over => exact ⟨M + 1, (cap_over (by omega)).symm⟩
  | ok a => exact ⟨a.1, (cap_ok a.2).symm⟩

instance (M : Nat) : Zero (Cap M) := ⟨cap M 0⟩

instance (M : Nat) : Add (Cap M) := ⟨Cap.add⟩

instance (M : Nat) : AddCommMonoid (Cap M) where
  nsmul := nsmulRec
  add_assoc a b c := by
    obtain ⟨a, rfl⟩ := cap_surjective a
    obtain ⟨b, rfl⟩ := cap_surjective b
    obtain ⟨c, rfl⟩ := cap_surjective c
    show Cap.add (Cap.add _ _) _ = Cap.add _ (Cap.add _ _)
    rw [← cap_add, ← cap_add, ← cap_add, ← cap_add, Nat.add_assoc]
  zero_add a := by
    obtain ⟨a, rfl⟩ := cap_surjective a
    show Cap.add (cap M 0) _ = _
    rw [← cap_add, Nat.zero_add]
  add_zero a := by
    obtain ⟨a, rfl⟩ := cap_surjective a
    show Cap.add _ (cap M 0) = _
    rw [← cap_add, Nat.add_zero]
  add_comm a b := by
    obtain ⟨a, rfl⟩ := cap_surjective a
    obtain ⟨b, rfl⟩ := cap_surjective b
    show Cap.add _ _ = Cap.add _ _
    rw [← cap_add, ← cap_add, Nat.add_comm]

/-- `cap` as a homomorphism. -/
def capHom (M : Nat) : ℕ →+ Cap M where
  toFun := cap M
  map_zero' := rfl
  map_add' := cap_add M

theorem list_sum_cap (M : Nat) (l : List (Int × Int)) (f : Int × Int → Nat) :
    (l.map fun e => cap M (f e)).sum = cap M (l.map f).sum := by
  induction l with
  | nil => rfl
  | cons e rest ih =>
    rw [List.map_cons, List.sum_cons, ih, List.map_cons, List.sum_cons, cap_add]
    rfl

theorem cellTotal_cap (M : Nat) (v : Int × Int → Nat) (entries : List (Int × Int)) (r g b : ℤ) :
    cellTotal (fun e => cap M (v e)) entries r g b = capHom M (cellTotal v entries r g b) := by
  unfold cellTotal
  show _ = cap M _
  rw [← list_sum_cap]
  congr 2
  funext e
  split_ifs
  · rfl
  · rfl

theorem prefixSum_cap (M : Nat) (f : ℤ → ℤ → ℤ → Nat) (r g b : ℤ) :
    prefixSum (fun r g b => capHom M (f r g b)) r g b = capHom M (prefixSum f r g b) := by
  unfold prefixSum sumTo
  simp only [map_sum]

theorem cellSum_nat (v : Int × Int → Nat) (entries : List (Int × Int)) (r g b : ℤ) :
    prefixSum (cellTotal v entries) r g b ≤ (entries.map v).sum := by
  have hz : ((prefixSum (cellTotal v entries) r g b : Nat) : Int) =
      cellSum (cellTotal (fun e => ((v e : Nat) : Int)) entries) 0 r 0 g 0 b := by
    unfold prefixSum sumTo cellSum
    push_cast
    refine Finset.sum_congr rfl fun r' _ => Finset.sum_congr rfl fun g' _ => Finset.sum_congr rfl fun b' _ => ?_
    unfold cellTotal
    induction entries with
    | nil => rfl
    | cons e rest ih =>
      rw [List.map_cons, List.sum_cons, List.map_cons, List.sum_cons, Nat.cast_add, ih]
      congr 1
      split_ifs <;> simp
  have h2 := cellSum_cellTotal (fun e => ((v e : Nat) : Int)) entries { r1 := r, g1 := g, b1 := b }
  have h3 : cellSum (cellTotal (fun e => ((v e : Nat) : Int)) entries) 0 r 0 g 0 b =
      ((entries.filter fun e => decide (InBox { r1 := r, g1 := g, b1 := b } e.1)).map fun e => ((v e : Nat) : Int)).sum := h2
  have h4 : ∀ (l : List (Int × Int)) (q : Int × Int → Bool),
      ((l.filter q).map fun e => ((v e : Nat) : Int)).sum ≤ ((l.map v).sum : Nat) := by
    intro l q
    induction l with
    | nil => simp
    | cons e rest ih =>
      cases hq : q e
      · rw [List.filter_cons_of_neg (by simp [hq]), List.map_cons, List.sum_cons, Nat.cast_add]; omega
      · rw [List.filter_cons_of_pos hq, List.map_cons, List.sum_cons, List.map_cons, List.sum_cons, Nat.cast_add]; omega
  have := h4 entries fun e => decide (InBox { r1 := r, g1 := g, b1 := b } e.1)
  rw [← h3, ← hz] at this
  exact_mod_cast this

/-- C48: filling and cumulating a table with summands `v` whose total is at most `M`, on numbers that
remember exceeding `M`: no entry of the result has overflowed. -/
theorem c48_tables (M : Nat) (v : Int × Int → Nat) (entries : List (Int × Int))
    (hM : (entries.map v).sum ≤ M) (r g b : ℤ) (hr : 0 ≤ r ∧ r ≤ 32) (hg : 0 ≤ g ∧ g ≤ 32)
    (hb : 0 ≤ b ∧ b ≤ 32) :
    tget 0 (cumulate 0 (entries.foldl (addOne fun e => cap M (v e)) (Array.replicate totalSize 0)))
      (getIndex r g b) = cap M (prefixSum (cellTotal v entries) r g b) ∧
    cap M (prefixSum (cellTotal v entries) r g b) ≠ .over := by
  have h := cumulate_shows (addOne_fold (fun e => cap M (v e)) entries)
    (fun _ _ => cellTotal_zero _ entries (Or.inl rfl))
    (fun _ _ => cellTotal_zero _ entries (Or.inr (Or.inl rfl)))
    (fun _ _ => cellTotal_zero _ entries (Or.inr (Or.inr rfl)))
  constructor
  · rw [h.2 r g b hr.1 hr.2 hg.1 hg.2 hb.1 hb.2]
    have : cellTotal (fun e => cap M (v e)) entries = fun r g b => capHom M (cellTotal v entries r g b) := by
      funext r g b; exact cellTotal_cap M v entries r g b
    rw [this, prefixSum_cap]
    rfl
  · have hlt : prefixSum (cellTotal v entries) r g b < M + 1 := by
      have := cellSum_nat v entries r g b
      omega
    rw [cap_ok hlt]
    exact fun h => by cases h

/-- C48: the summands themselves, `count * (red² + green² + blue²)` being the largest, and their totals
fit. -/
theorem c48_summands (pixels : List Int) (entries : List (Int × Int)) (h : CountsOf pixels entries)
    (hN : opaqueCount pixels ≤ 6876129) :
    (∀ e ∈ entries, 0 ≤ e.2 ∧ FitsI64 e.2 ∧ FitsI64 (redFromArgb e.1 * e.2) ∧ FitsI64 (greenFromArgb e.1 * e.2) ∧
      FitsI64 (blueFromArgb e.1 * e.2) ∧ FitsI64 (e.2 * squared e.1)) ∧
    ∀ w : Int → Int, (∀ p, 0 ≤ w p ∧ w p ≤ 255) →
      (entries.map fun e => (w e.1 * e.2).toNat).sum ≤ 2 ^ 63 - 1 := by
  have hpos : ∀ e ∈ entries, 0 ≤ e.2 := by
    intro e he
    have := (c43_entries pixels e.1 e.2).1 (h.mem_iff.1 he)
    omega
  have hle : ∀ e ∈ entries, e.2 ≤ opaqueCount pixels := by
    intro e he
    obtain ⟨h1, h2, h3⟩ := (c43_entries pixels e.1 e.2).1 (h.mem_iff.1 he)
    rw [h3]
    unfold opaqueCount
    have : pixels.count e.1 ≤ pixels.countP fun p => decide (alphaFromArgb p = 255) := by
      rw [List.count]
      refine List.countP_mono_left fun x _ hx => ?_
      have hx' : x = e.1 := by simpa using hx
      rw [hx']; exact decide_eq_true h1
    omega
  constructor
  · intro e he
    have h1 := hpos e he
    have h2 := hle e he
    obtain ⟨c1, c2, c3⟩ := channel_range e.1
    have hm : ∀ a : Int, 0 ≤ a ∧ a ≤ 195075 → 0 ≤ a * e.2 ∧ a * e.2 ≤ 195075 * 6876129 := fun a ha =>
      ⟨mul_nonneg ha.1 h1, mul_le_mul ha.2 (by omega) h1 (by norm_num)⟩
    have hs : 0 ≤ squared e.1 ∧ squared e.1 ≤ 195075 := by
      unfold squared
      constructor <;> nlinarith
    have m1 := hm _ (show 0 ≤ redFromArgb e.1 ∧ redFromArgb e.1 ≤ 195075 by omega)
    have m2 := hm _ (show 0 ≤ greenFromArgb e.1 ∧ greenFromArgb e.1 ≤ 195075 by omega)
    have m3 := hm _ (show 0 ≤ blueFromArgb e.1 ∧ blueFromArgb e.1 ≤ 195075 by omega)
    have m4 := hm _ hs
    rw [mul_comm e.2 (squared e.1)]
    norm_num at m1 m2 m3 m4
    unfold FitsI64
    omega
  · intro w hw
    have hz : (((entries.map fun e => (w e.1 * e.2).toNat).sum : Nat) : Int) = (entries.map fun e => e.2 * w e.1).sum := by
      have : ∀ l : List (Int × Int), (∀ e ∈ l, 0 ≤ e.2) →
          (((l.map fun e => (w e.1 * e.2).toNat).sum : Nat) : Int) = (l.map fun e => e.2 * w e.1).sum := by
        intro l
        induction l with
        | nil => intro _; rfl
        | cons e rest ih =>
          intro hl
          rw [List.map_cons, List.sum_cons, List.map_cons, List.sum_cons]
          rw [Nat.cast_add, ih fun x hx => hl x (List.mem_cons_of_mem _ hx),
            Int.toNat_of_nonneg (mul_nonneg (hw e.1).1 (hl e List.mem_cons_self)), mul_comm]
      exact this entries hpos
    have ht : (entries.map fun e => e.2 * w e.1).sum = pixelTotal w pixels firstBox := by
      rw [← boxTotal_pixels h]
      unfold boxTotal
      rw [List.filter_eq_self.2]
      intro e _
      have := bucket_range e.1
      unfold bucket at this
      have hin : InBox firstBox e.1 := by
        unfold InBox firstBox maxIndex; simp only; omega
      exact decide_eq_true hin
    have hb := (pixelTotal_bounds w hw pixels firstBox).2
    have hc := (pixelCount_le pixels firstBox).2
    rw [ht] at hz
    omega

theorem whites_count (n : Nat) : opaqueCount (0xFF000000 :: List.replicate n 0xFFFFFFFF) = n + 1 := by
  unfold opaqueCount
  rw [List.countP_cons, List.countP_replicate, if_pos (by decide), if_pos (by decide)]
  push_cast
  rfl

theorem whites_total (n : Nat) (w : Int → Int) (hw : w 0xFFFFFFFF = 255) :
    pixelTotal w (0xFF000000 :: List.replicate n 0xFFFFFFFF) (upper firstBox .red 1) = n * 255 := by
  unfold pixelTotal
  rw [List.filter_cons_of_neg (by decide), List.filter_replicate, if_pos (by decide), List.map_replicate, hw,
    List.sum_replicate, nsmul_eq_mul]

theorem whites_overflow (n : Nat) (hn : n = 6876130) :
    ∃ x ∈ squaresTrace (n * 255) (n * 255) (n * 255), ¬ FitsI64 x :=
  ⟨(n * 255) * (n * 255) + (n * 255) * (n * 255) + (n * 255) * (n * 255), by simp [squaresTrace], by
    rw [hn]; decide⟩

/-- C48: the bound is sharp.  With one black and 6 876 130 white pixels the sum of squares of the upper
half of the first box, at the first cut position, does not fit. -/
theorem c48_sharp :
    ∃ (pixels : List Int) (entries : List (Int × Int)), CountsOf pixels entries ∧ opaqueCount pixels = 6876131 ∧
      ∃ x ∈ squaresTrace
          (pixelTotal redFromArgb pixels (upper firstBox .red 1)) (pixelTotal greenFromArgb pixels (upper firstBox .red 1))
          (pixelTotal blueFromArgb pixels (upper firstBox .red 1)), ¬ FitsI64 x := by
  obtain ⟨n, hn⟩ : ∃ n : Nat, n = 6876130 := ⟨_, rfl⟩
  refine ⟨0xFF000000 :: List.replicate n 0xFFFFFFFF, _, List.Perm.refl _, ?_, ?_⟩
  · rw [whites_count, hn]; norm_num
  · rw [whites_total n _ (by decide), whites_total n _ (by decide), whites_total n _ (by decide)]
    exact whites_overflow n hn

example : opaqueCount [0xFF123456, 0x00FFFFFF, 0xFFABCDEF] ≤ 6876129 ∧ Proper firstBox := by
  constructor
  · decide
  · unfold Proper; decide

end Mcu.Props
