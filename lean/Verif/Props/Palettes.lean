import Verif.Model.CorePalette
import Verif.Props.Opaque

/-! C32 - C37: tonal palettes and core palettes. -/

namespace Mcu.Props

open Mcu.ColorUtils Mcu.HctSolver Mcu.Spec Mcu.MathUtils

variable {F : Type} [Fl F]

/-! ### Histories -/

/-- A reading call on a palette that may change its cache. -/
inductive PaletteOp where
  | get (tone : Int)
  | getAsList

/-- The palette after a call. -/
def PaletteOp.run (p : TonalPalette F) : PaletteOp → TonalPalette F
  | .get t => (p.get t).2
  | .getAsList => p.getAsList.2

/-- The palette after a history of calls. -/
def afterReads (p : TonalPalette F) (ops : List PaletteOp) : TonalPalette F :=
  ops.foldl PaletteOp.run p

/-- The colour of a hue, chroma and integer tone. -/
def toneColor (hue chroma : F) (t : Int) : Int := (Hct.fromHct hue chroma (Fl.ofInt t)).toInt

/-- What a lookup answers: the stored colour or the computed one. -/
def answer (p : TonalPalette F) (t : Int) : Int :=
  (p.cache.lookup t).getD (toneColor p.hue p.chroma t)

theorem get_fst (p : TonalPalette F) (t : Int) : (p.get t).1 = answer p t := by
  unfold TonalPalette.get answer
  cases p.cache.lookup t <;> rfl

/-- Nothing but the cache changes, and the cache only in ways that do not show. -/
def SameAnswers (p q : TonalPalette F) : Prop :=
  p.hue = q.hue ∧ p.chroma = q.chroma ∧ p.keyColor = q.keyColor ∧ p.isFromCache = q.isFromCache ∧
    ∀ t, answer p t = answer q t

theorem SameAnswers.rfl' (p : TonalPalette F) : SameAnswers p p := ⟨rfl, rfl, rfl, rfl, fun _ => rfl⟩

theorem SameAnswers.trans {p q r : TonalPalette F} (h : SameAnswers p q) (k : SameAnswers q r) :
    SameAnswers p r :=
  ⟨h.1.trans k.1, h.2.1.trans k.2.1, h.2.2.1.trans k.2.2.1, h.2.2.2.1.trans k.2.2.2.1,
    fun t => (h.2.2.2.2 t).trans (k.2.2.2.2 t)⟩

theorem get_same (p : TonalPalette F) (t : Int) : SameAnswers p (p.get t).2 := by
  unfold TonalPalette.get
  cases h : p.cache.lookup t with
  | some argb => exact SameAnswers.rfl' p
  | none =>
    refine ⟨rfl, rfl, rfl, rfl, fun s => ?_⟩
    simp only [answer, List.lookup_cons]
    by_cases hs : s = t
    · subst hs; rw [h]; simp [toneColor]
    · have : (s == t) = false := by simpa using hs
      rw [this]

theorem getAll_same (ts : List Int) (p : TonalPalette F) :
    SameAnswers p (p.getAll ts).2 ∧ (p.getAll ts).1 = ts.map (answer p) := by
  induction ts generalizing p with
  | nil => exact ⟨SameAnswers.rfl' p, rfl⟩
  | cons t ts ih =>
    have h1 := get_same p t
    have h2 := ih (p.get t).2
    refine ⟨h1.trans h2.1, ?_⟩
    simp only [TonalPalette.getAll, List.map_cons, get_fst, h2.2]
    congr 1
    apply List.map_congr_left
    intro s _
    exact (h1.2.2.2.2 s).symm

theorem run_same (p : TonalPalette F) (op : PaletteOp) : SameAnswers p (op.run p) := by
  cases op with
  | get t => exact get_same p t
  | getAsList => exact (getAll_same _ p).1

theorem reads_same (ops : List PaletteOp) (p : TonalPalette F) : SameAnswers p (afterReads p ops) := by
  induction ops generalizing p with
  | nil => exact SameAnswers.rfl' p
  | cons op ops ih => exact (run_same p op).trans (ih _)

/-! ### C32 -/

/-- C32: for a palette made from hue and chroma, reading a tone gives the colour of that hue, chroma and
tone, whatever was read before (any `F`). -/
theorem c32_history_independent (hue chroma : F) (ops : List PaletteOp) (t : Int) :
    ((afterReads (TonalPalette.of hue chroma) ops).get t).1 =
      (Hct.fromHct hue chroma (Fl.ofInt t)).toInt := by
  rw [get_fst, ← (reads_same ops (TonalPalette.of hue chroma)).2.2.2.2 t]
  rfl

/-- C32: the same for a palette made from an HCT colour. -/
theorem c32_history_independent_from_hct (h : Hct F) (ops : List PaletteOp) (t : Int) :
    ((afterReads (TonalPalette.fromHct h) ops).get t).1 =
      (Hct.fromHct h.getHue h.getChroma (Fl.ofInt t)).toInt := by
  rw [get_fst, ← (reads_same ops (TonalPalette.fromHct h)).2.2.2.2 t]
  rfl

/-- C32: reading never changes hue, chroma or key colour, for palettes of any kind. -/
theorem c32_reads_keep_parameters (p : TonalPalette F) (ops : List PaletteOp) :
    (afterReads p ops).hue = p.hue ∧ (afterReads p ops).chroma = p.chroma ∧
    (afterReads p ops).keyColor = p.keyColor := by
  have h := reads_same ops p
  exact ⟨h.1.symm, h.2.1.symm, h.2.2.1.symm⟩

/-- C32: the colours of such a palette are opaque. -/
theorem c32_opaque (hue chroma : F) (ops : List PaletteOp) (t : Int) :
    Opaque32 ((afterReads (TonalPalette.of hue chroma) ops).get t).1 := by
  rw [c32_history_independent]
  exact c14_solver _ _ _

/-- A non-trivial history: after it the next read of tone 40 is a cache hit. -/
example (hue chroma : F) :
    (afterReads (TonalPalette.of hue chroma) [.get 40]).cache = [(40, toneColor hue chroma 40)] := rfl

/-! ### C33 -/

/-- C33, what the code does: the colour of a possibly fractional tone is the stored colour of the
truncated tone if that integer tone was read before, and otherwise the colour of the tone itself. -/
theorem c33_characterisation (p : TonalPalette F) (tone : F) :
    p.getHct tone = match p.cache.lookup (Fl.toI64 tone) with
      | some argb => Hct.fromInt argb
      | none => Hct.fromHct p.hue p.chroma tone := rfl

/-- C33 (partial): for integer tones the answer does not depend on what was read before.
Missing: fractional tones, for which the claim is false (`c33_violated`). -/
theorem c33_integer_tones_partial (hue chroma : ℝ) (ops : List PaletteOp) (t : Int)
    (ht : -9223372036854775808 ≤ t ∧ t ≤ 9223372036854775807) :
    (afterReads (TonalPalette.of hue chroma) ops).getHct (t : ℝ) = Hct.fromHct hue chroma (t : ℝ) := by
  have h := reads_same ops (TonalPalette.of hue chroma)
  have he : (Fl.toI64 (t : ℝ)) = t := by rw [fl_toI64, realTrunc_intCast, satI64_of_mem ht]
  have ha := h.2.2.2.2 t
  simp only [TonalPalette.getHct, he]
  simp only [answer] at ha
  rw [← h.1, ← h.2.1] at ha
  cases hl : (afterReads (TonalPalette.of hue chroma) ops).cache.lookup t with
  | none => rw [← h.1, ← h.2.1]; rfl
  | some argb =>
    rw [hl] at ha
    have : argb = toneColor hue chroma t := by
      simpa [TonalPalette.of] using ha.symm
    rw [this]
    rfl

example : (-9223372036854775808 : Int) ≤ 50 ∧ (50 : Int) ≤ 9223372036854775807 := by decide

/-- C33 (partial): a fractional tone whose truncation has not been read is answered correctly.
Missing: fractional tones whose truncation was read (`c33_violated`). -/
theorem c33_unread_tones_partial (p : TonalPalette F) (tone : F)
    (h : p.cache.lookup (Fl.toI64 tone) = none) :
    p.getHct tone = Hct.fromHct p.hue p.chroma tone := by
  simp only [TonalPalette.getHct, h]

/-- C33 is violated by the code: after reading tone 50 of a gray palette, asking for tone 50.9 gives a
colour that is not the colour of tone 50.9. -/
theorem c33_violated :
    ∃ (hue chroma tone : ℝ) (ops : List PaletteOp),
      (afterReads (TonalPalette.of hue chroma) ops).getHct tone ≠ Hct.fromHct hue chroma tone ∧
      (TonalPalette.of hue chroma).getHct tone = Hct.fromHct hue chroma tone := by
  refine ⟨0, 0, 50.9, [.get 50], ?_, rfl⟩
  intro h
  have htr : Fl.toI64 (50.9 : ℝ) = 50 := by
    rw [fl_toI64, realTrunc_of_nonneg (by norm_num), show ⌊(50.9 : ℝ)⌋ = 50 from Int.floor_eq_iff.2 (by norm_num)]
    rfl
  have hl : (afterReads (TonalPalette.of (0 : ℝ) 0) [.get 50]).cache.lookup 50 =
      some (toneColor (0 : ℝ) 0 50) := by
    simp [afterReads, PaletteOp.run, TonalPalette.get, TonalPalette.of, toneColor]
  have e1 : (afterReads (TonalPalette.of (0 : ℝ) 0) [.get 50]).getHct 50.9 =
      Hct.fromInt (toneColor (0 : ℝ) 0 50) := by
    simp only [TonalPalette.getHct, htr, hl]
  rw [e1] at h
  have hc : (0 : ℝ) < 0.0001 := by norm_num
  have h2 := congrArg Hct.tone h
  have t1 : (Hct.fromInt (toneColor (0 : ℝ) 0 50) : Hct ℝ).tone =
      lstarFromArgb (argbFromLstar (50 : ℝ)) := by
    show lstarFromArgb (solveToInt (0 : ℝ) 0 (Fl.ofInt 50)) = _
    rw [(c24_gray _ _ _ (Or.inl hc)).1]; rfl
  have t2 : (Hct.fromHct (0 : ℝ) 0 50.9 : Hct ℝ).tone = lstarFromArgb (argbFromLstar (50.9 : ℝ)) := by
    show lstarFromArgb (solveToInt (0 : ℝ) 0 50.9) = _
    rw [(c24_gray _ _ _ (Or.inl hc)).1]
  rw [t1, t2] at h2
  have a1 := abs_le.1 (c16_accuracy 50 (by norm_num) (by norm_num))
  have a2 := abs_le.1 (c16_accuracy 50.9 (by norm_num) (by norm_num))
  rw [h2] at a1
  norm_num at a1 a2
  linarith [a1.2, a2.1]

/-! ### C34 -/

theorem lookup_zip (ks vs : List Int) (hl : ks.length = vs.length) (hn : ks.Nodup) (d : Int → Int) :
    ks.map (fun k => ((ks.zip vs).lookup k).getD (d k)) = vs := by
  induction ks generalizing vs with
  | nil => cases vs with
    | nil => rfl
    | cons _ _ => simp at hl
  | cons k ks ih =>
    cases vs with
    | nil => simp at hl
    | cons v vs =>
      simp only [List.length_cons, Nat.add_right_cancel_iff] at hl
      rw [List.nodup_cons] at hn
      simp only [List.map_cons, List.zip_cons_cons]
      congr 1
      · simp
      · rw [← ih vs hl hn.2]
        apply List.map_congr_left
        intro a ha
        have : (a == k) = false := by
          rw [beq_eq_false_iff_ne]; rintro rfl; exact hn.1 ha
        rw [List.lookup_cons, this, ih vs hl hn.2]

theorem commonTones_nodup : TonalPalette.commonTones.Nodup := by decide

/-- C34: exactly the lists of 13 colours are accepted. -/
theorem c34_accepts (colors : List Int) :
    (TonalPalette.fromList colors : Option (TonalPalette F)).isSome ↔ colors.length = 13 := by
  by_cases h : colors.length = TonalPalette.commonSize
  · have h13 : colors.length = 13 := h
    simp only [TonalPalette.fromList, if_pos h]
    simp only [Option.isSome_some, h13]
  · have h13 : ¬ colors.length = 13 := h
    simp only [TonalPalette.fromList, if_neg h, h13]
    simp

/-- C34: a palette built from a list returns that list, whatever was read before. -/
theorem c34_round_trip (colors : List Int) (p : TonalPalette F)
    (h : TonalPalette.fromList colors = some p) (ops : List PaletteOp) :
    (afterReads p ops).getAsList.1 = colors := by
  have hs := reads_same ops p
  have e : (afterReads p ops).getAsList.1 = TonalPalette.commonTones.map (answer p) := by
    rw [TonalPalette.getAsList, (getAll_same _ _).2]
    apply List.map_congr_left
    intro t _
    exact (hs.2.2.2.2 t).symm
  rw [e]
  simp only [TonalPalette.fromList] at h
  split at h
  · next hl =>
    cases h
    exact lookup_zip _ _ hl.symm commonTones_nodup _
  · cases h

/-- C34: reading the i-th common tone of such a palette gives the i-th colour of the list. -/
theorem c34_get (colors : List Int) (p : TonalPalette F)
    (h : TonalPalette.fromList colors = some p) (ops : List PaletteOp) (i : Nat) (hi : i < 13) :
    ((afterReads p ops).get (TonalPalette.commonTones.getD i 0)).1 = colors.getD i 0 := by
  have hr := c34_round_trip colors p h ops
  rw [TonalPalette.getAsList, (getAll_same _ _).2] at hr
  rw [get_fst, ← hr]
  have hlen : i < TonalPalette.commonTones.length := hi
  simp only [List.getD_eq_getElem?_getD, List.getElem?_map, List.getElem?_eq_getElem hlen,
    Option.map_some, Option.getD_some]

example : (TonalPalette.fromList (F := F) [1, 2, 3, 4, 5, 6, 7, 8, 9, 10, 11, 12, 13]).isSome := by
  rw [c34_accepts]; rfl

theorem getAsList_length (p : TonalPalette F) : p.getAsList.1.length = 13 := by
  rw [TonalPalette.getAsList, (getAll_same _ _).2]; rfl

theorem fromList_some (l : List Int) (h : l.length = 13) :
    ∃ p : TonalPalette F, TonalPalette.fromList l = some p ∧ p.getAsList.1 = l := by
  have := (c34_accepts (F := F) l).2 h
  obtain ⟨p, hp⟩ := Option.isSome_iff_exists.1 this
  exact ⟨p, hp, c34_round_trip l p hp []⟩

/-- C34: a core palette is accepted from exactly the lists of 65 colours. -/
theorem c34_core_accepts (colors : List Int) :
    (CorePalette.fromList colors : Option (CorePalette F)).isSome ↔ colors.length = 65 := by
  by_cases h : colors.length = CorePalette.size * TonalPalette.commonSize
  · have h65 : colors.length = 65 := h
    have part (k : Nat) (hk : k < 5) : (CorePalette.getPartition colors k 13).length = 13 := by
      simp only [CorePalette.getPartition, List.length_take, List.length_drop]; omega
    obtain ⟨p0, q0, -⟩ := fromList_some (F := F) _ (part 0 (by decide))
    obtain ⟨p1, q1, -⟩ := fromList_some (F := F) _ (part 1 (by decide))
    obtain ⟨p2, q2, -⟩ := fromList_some (F := F) _ (part 2 (by decide))
    obtain ⟨p3, q3, -⟩ := fromList_some (F := F) _ (part 3 (by decide))
    obtain ⟨p4, q4, -⟩ := fromList_some (F := F) _ (part 4 (by decide))
    have hc : TonalPalette.commonSize = 13 := rfl
    simp only [CorePalette.fromList, if_pos h]
    simp only [hc, q0, q1, q2, q3, q4, Option.bind_eq_bind, Option.bind_some, Option.isSome_some, h65]
  · have h65 : ¬ colors.length = 65 := h
    simp only [CorePalette.fromList, if_neg h]
    simp [h65]

/-- C34: a core palette built from a list of 65 colours returns that list. -/
theorem c34_core_from_list (colors : List Int) (h : colors.length = 65) :
    ∃ p : CorePalette F, CorePalette.fromList colors = some p ∧ p.asList.1 = colors := by
  have part (k : Nat) (hk : k < 5) : (CorePalette.getPartition colors k 13).length = 13 := by
    simp only [CorePalette.getPartition, List.length_take, List.length_drop]; omega
  obtain ⟨p0, q0, r0⟩ := fromList_some (F := F) _ (part 0 (by decide))
  obtain ⟨p1, q1, r1⟩ := fromList_some (F := F) _ (part 1 (by decide))
  obtain ⟨p2, q2, r2⟩ := fromList_some (F := F) _ (part 2 (by decide))
  obtain ⟨p3, q3, r3⟩ := fromList_some (F := F) _ (part 3 (by decide))
  obtain ⟨p4, q4, r4⟩ := fromList_some (F := F) _ (part 4 (by decide))
  refine ⟨⟨p0, p1, p2, p3, p4, CorePalette.defaultError⟩, ?_, ?_⟩
  · have hs : colors.length = CorePalette.size * TonalPalette.commonSize := h
    simp only [CorePalette.fromList, if_pos hs]
    have hc : TonalPalette.commonSize = 13 := rfl
    simp only [hc, q0, q1, q2, q3, q4, Option.bind_eq_bind, Option.bind_some]
  · simp only [CorePalette.asList, r0, r1, r2, r3, r4, CorePalette.getPartition]
    have split (k : Nat) : (colors.drop (k * 13)) =
        (colors.drop (k * 13)).take 13 ++ colors.drop ((k + 1) * 13) := by
      conv_lhs => rw [← List.take_append_drop 13 (colors.drop (k * 13))]
      rw [List.drop_drop]; congr 2; ring
    have last : colors.drop (5 * 13) = [] := List.drop_eq_nil_of_le (by omega)
    have s0 := split 0
    have s1 := split 1
    have s2 := split 2
    have s3 := split 3
    have s4 := split 4
    rw [show (4 + 1) * 13 = 5 * 13 from rfl, last, List.append_nil] at s4
    simp only [Nat.reduceAdd] at s0 s1 s2 s3
    rw [← s4, List.append_assoc, List.append_assoc, List.append_assoc, ← s3, ← s2, ← s1, ← s0]
    simp

/-- C34: serialising any core palette and rebuilding it succeeds and gives the same list. -/
theorem c34_core_round_trip (p : CorePalette F) :
    ∃ q : CorePalette F, CorePalette.fromList p.asList.1 = some q ∧ q.asList.1 = p.asList.1 := by
  apply c34_core_from_list
  simp only [CorePalette.asList, List.length_append, getAsList_length]

/-! ### C35 -/

theorem listEquals_iff (a b : List Int) : TonalPalette.listEquals a b = true ↔ a = b := by
  unfold TonalPalette.listEquals
  split
  · next h =>
    constructor
    · intro hall
      induction a generalizing b with
      | nil => cases b with
        | nil => rfl
        | cons _ _ => simp at h
      | cons x xs ih =>
        cases b with
        | nil => simp at h
        | cons y ys =>
          simp only [List.zip_cons_cons, List.all_cons, Bool.and_eq_true, beq_iff_eq] at hall
          rw [hall.1, ih ys (by simpa using h) hall.2]
    · rintro rfl
      clear h
      induction a with
      | nil => rfl
      | cons x xs ih => simp only [List.zip_cons_cons, List.all_cons, beq_self_eq_true, ih, Bool.and_self]
  · next h =>
    constructor
    · intro hf; cases hf
    · rintro rfl; exact absurd rfl h

/-- What `==` on palettes means. -/
theorem c35_characterisation (p q : TonalPalette ℝ) :
    p.eq q = true ↔
      if p.isFromCache = false ∧ q.isFromCache = false then p.hue = q.hue ∧ p.chroma = q.chroma
      else p.getAsList.1 = q.getAsList.1 := by
  unfold TonalPalette.eq
  cases hp : p.isFromCache <;> cases hq : q.isFromCache <;>
    simp [listEquals_iff]

/-- C35 (partial): equality is reflexive and symmetric for all palettes.
Missing: transitivity and agreement with hashing across the two kinds of palettes, both false
(`c35_not_transitive`, `c35_hash_disagrees`). -/
theorem c35_refl_symm_partial (p q : TonalPalette ℝ) :
    p.eq p = true ∧ (p.eq q = true → q.eq p = true) := by
  rw [c35_characterisation, c35_characterisation, c35_characterisation]
  constructor
  · split <;> simp
  · intro h
    split at h
    · next hk => rw [if_pos hk.symm]; exact ⟨h.1.symm, h.2.symm⟩
    · next hk => rw [if_neg (fun hk' => hk hk'.symm)]; exact h.symm

/-- C35 (partial): among palettes of the same kind equality is transitive and equal palettes feed the
same data to the hasher. -/
theorem c35_same_kind_partial (p q r : TonalPalette ℝ) (hpq : p.isFromCache = q.isFromCache)
    (hqr : q.isFromCache = r.isFromCache) :
    (p.eq q = true → q.eq r = true → p.eq r = true) ∧ (p.eq q = true → p.hashInput = q.hashInput) := by
  rw [c35_characterisation, c35_characterisation, c35_characterisation, ← hqr, ← hpq]
  simp only [TonalPalette.hashInput, ← hpq]
  cases hp : p.isFromCache
  · simp only [and_self, if_true]
    constructor
    · rintro ⟨a, b⟩ ⟨c, d⟩; exact ⟨a.trans c, b.trans d⟩
    · rintro ⟨a, b⟩; rw [if_pos (by rfl), if_pos (by rfl), a, b]
  · simp only [Bool.true_eq_false, and_self, if_false]
    constructor
    · intro a b; exact a.trans b
    · intro a; rw [if_neg (by simp), if_neg (by simp), a]

/-- Two palettes without chroma have the same colours whatever their hue. -/
theorem gray_lists (h h' : ℝ) :
    (TonalPalette.of h (0 : ℝ)).getAsList.1 = (TonalPalette.of h' (0 : ℝ)).getAsList.1 := by
  rw [TonalPalette.getAsList, TonalPalette.getAsList, (getAll_same _ _).2, (getAll_same _ _).2]
  apply List.map_congr_left
  intro t _
  have hc : (0 : ℝ) < 0.0001 := by norm_num
  show solveToInt h 0 (Fl.ofInt t) = solveToInt h' 0 (Fl.ofInt t)
  rw [(c24_gray _ _ _ (Or.inl hc)).1, (c24_gray _ _ _ (Or.inl hc)).1]

/-- C35 is violated by the code: equality of palettes is not transitive. -/
theorem c35_not_transitive : ∃ p q r : TonalPalette ℝ,
    p.eq q = true ∧ q.eq r = true ∧ p.eq r = false := by
  obtain ⟨q, hq, hl⟩ := fromList_some (F := ℝ) (TonalPalette.of (0 : ℝ) 0).getAsList.1
    (getAsList_length _)
  have hk : q.isFromCache = true := by
    simp only [TonalPalette.fromList] at hq
    split at hq
    · cases hq; rfl
    · cases hq
  refine ⟨TonalPalette.of 0 0, q, TonalPalette.of 1 0, ?_, ?_, ?_⟩
  · rw [c35_characterisation, if_neg (by simp [hk]), hl]
  · rw [c35_characterisation, if_neg (by simp [hk]), hl]; exact gray_lists 0 1
  · rw [Bool.eq_false_iff, Ne, c35_characterisation, if_pos ⟨rfl, rfl⟩]
    simp [TonalPalette.of]

/-- C35 is violated by the code: equal palettes may feed different data to the hasher. -/
theorem c35_hash_disagrees : ∃ p q : TonalPalette ℝ, p.eq q = true ∧ p.hashInput ≠ q.hashInput := by
  obtain ⟨q, hq, hl⟩ := fromList_some (F := ℝ) (TonalPalette.of (0 : ℝ) 0).getAsList.1
    (getAsList_length _)
  have hk : q.isFromCache = true := by
    simp only [TonalPalette.fromList] at hq
    split at hq
    · cases hq; rfl
    · cases hq
  refine ⟨TonalPalette.of 0 0, q, ?_, ?_⟩
  · rw [c35_characterisation, if_neg (by simp [hk]), hl]
  · intro h
    have := congrArg List.length h
    simp only [TonalPalette.hashInput, hk] at this
    simp [TonalPalette.of, getAsList_length] at this

/-! ### C36 -/

/-- Distance of the chroma obtained at a tone from the requested chroma. -/
noncomputable def chromaMiss (hue chroma tone : ℝ) : ℝ :=
  |(Hct.fromHct hue chroma tone).getChroma - chroma|

/-- `t` is among the tones examined in the first `n` rounds. -/
def Examined (n : Nat) (t : ℝ) : Prop := ∃ d : Nat, d ≤ n ∧ (t = 50 + d ∨ t = 50 - d)

/-- The state of the search after `n` rounds. -/
structure KeyInv (hue chroma : ℝ) (n : Nat) (smallest : ℝ) (best : Hct ℝ) : Prop where
  found : ∃ t, Examined n t ∧ best = Hct.fromHct hue chroma t ∧ smallest = chromaMiss hue chroma t
  least : ∀ t, Examined n t → smallest ≤ chromaMiss hue chroma t

theorem keyLoop_spec (hue chroma : ℝ) (k n : Nat) (smallest : ℝ) (best : Hct ℝ)
    (inv : KeyInv hue chroma n smallest best) :
    ∃ m, n ≤ m ∧ m ≤ n + k ∧
      (m = n + k ∨ Fl.round chroma = Fl.round (TonalPalette.keyLoop hue chroma
        ((List.range k).map (· + (n + 1))) smallest best).getChroma) ∧
      ∃ s, KeyInv hue chroma m s (TonalPalette.keyLoop hue chroma
        ((List.range k).map (· + (n + 1))) smallest best) := by
  induction k generalizing n smallest best with
  | zero => exact ⟨n, le_rfl, le_rfl, Or.inl rfl, smallest, inv⟩
  | succ k ih =>
    have hl : (List.range (k + 1)).map (· + (n + 1)) =
        (n + 1) :: (List.range k).map (· + (n + 1 + 1)) := by
      rw [List.range_succ_eq_map, List.map_cons, List.map_map]
      congr 1
      · simp
      · apply List.map_congr_left; intro a _; simp; omega
    rw [hl]
    by_cases hr : (Fl.round chroma == Fl.round best.getChroma) = true
    · have e : TonalPalette.keyLoop hue chroma ((n + 1) :: (List.range k).map (· + (n + 1 + 1)))
          smallest best = best := by simp only [TonalPalette.keyLoop, if_pos hr]
      rw [e]
      exact ⟨n, le_rfl, by omega, Or.inr ((fl_beq _ _).1 hr), smallest, inv⟩
    · have e50 : (50.0 : ℝ) = 50 := by norm_num
      have hd : (Fl.ofInt ((n + 1 : Nat) : Int) : ℝ) = ((n + 1 : Nat) : ℝ) := by
        rw [fl_ofInt]; norm_cast
      simp only [TonalPalette.keyLoop, if_neg hr, e50, hd]
      set add := Hct.fromHct hue chroma (50 + ((n + 1 : Nat) : ℝ)) with hadd
      set sub := Hct.fromHct hue chroma (50 - ((n + 1 : Nat) : ℝ)) with hsub
      have madd : Fl.abs (add.getChroma - chroma) = chromaMiss hue chroma (50 + ((n + 1 : Nat) : ℝ)) := rfl
      have msub : Fl.abs (sub.getChroma - chroma) = chromaMiss hue chroma (50 - ((n + 1 : Nat) : ℝ)) := rfl
      rw [madd, msub]
      obtain ⟨t0, ht0, hb0, hs0⟩ := inv.found
      have up {t} (h : Examined n t) : Examined (n + 1) t := by
        obtain ⟨d, hd, h⟩ := h; exact ⟨d, by omega, h⟩
      have exAdd : Examined (n + 1) (50 + ((n + 1 : Nat) : ℝ)) := ⟨n + 1, le_rfl, Or.inl rfl⟩
      have exSub : Examined (n + 1) (50 - ((n + 1 : Nat) : ℝ)) := ⟨n + 1, le_rfl, Or.inr rfl⟩
      have split {t} (h : Examined (n + 1) t) : Examined n t ∨ t = 50 + ((n + 1 : Nat) : ℝ) ∨
          t = 50 - ((n + 1 : Nat) : ℝ) := by
        obtain ⟨d, hd, h⟩ := h
        rcases Nat.lt_or_ge d (n + 1) with hlt | hge
        · exact Or.inl ⟨d, by omega, h⟩
        · have : d = n + 1 := by omega
          subst this; exact Or.inr h
      -- the pair after looking at the larger tone
      have key : ∀ (s1 : ℝ) (b1 : Hct ℝ), (∃ t, Examined (n + 1) t ∧ b1 = Hct.fromHct hue chroma t ∧
          s1 = chromaMiss hue chroma t) → (∀ t, Examined n t → s1 ≤ chromaMiss hue chroma t) →
          s1 ≤ chromaMiss hue chroma (50 + ((n + 1 : Nat) : ℝ)) →
          KeyInv hue chroma (n + 1)
            (if chromaMiss hue chroma (50 - ((n + 1 : Nat) : ℝ)) < s1
              then (chromaMiss hue chroma (50 - ((n + 1 : Nat) : ℝ)), sub) else (s1, b1)).1
            (if chromaMiss hue chroma (50 - ((n + 1 : Nat) : ℝ)) < s1
              then (chromaMiss hue chroma (50 - ((n + 1 : Nat) : ℝ)), sub) else (s1, b1)).2 := by
        intro s1 b1 hf hl1 hl2
        split
        · next hlt =>
          refine ⟨⟨_, exSub, rfl, rfl⟩, fun t ht => ?_⟩
          rcases split ht with h | h | h
          · exact hlt.le.trans (hl1 t h)
          · rw [h]; exact hlt.le.trans hl2
          · rw [h]
        · next hlt =>
          refine ⟨hf, fun t ht => ?_⟩
          rcases split ht with h | h | h
          · exact hl1 t h
          · rw [h]; exact hl2
          · rw [h]; exact not_lt.1 hlt
      have inv' : KeyInv hue chroma (n + 1)
          (if chromaMiss hue chroma (50 - ((n + 1 : Nat) : ℝ)) <
              (if chromaMiss hue chroma (50 + ((n + 1 : Nat) : ℝ)) < smallest
                then (chromaMiss hue chroma (50 + ((n + 1 : Nat) : ℝ)), add) else (smallest, best)).1
            then (chromaMiss hue chroma (50 - ((n + 1 : Nat) : ℝ)), sub)
            else (if chromaMiss hue chroma (50 + ((n + 1 : Nat) : ℝ)) < smallest
                then (chromaMiss hue chroma (50 + ((n + 1 : Nat) : ℝ)), add) else (smallest, best))).1
          (if chromaMiss hue chroma (50 - ((n + 1 : Nat) : ℝ)) <
              (if chromaMiss hue chroma (50 + ((n + 1 : Nat) : ℝ)) < smallest
                then (chromaMiss hue chroma (50 + ((n + 1 : Nat) : ℝ)), add) else (smallest, best)).1
            then (chromaMiss hue chroma (50 - ((n + 1 : Nat) : ℝ)), sub)
            else (if chromaMiss hue chroma (50 + ((n + 1 : Nat) : ℝ)) < smallest
                then (chromaMiss hue chroma (50 + ((n + 1 : Nat) : ℝ)), add) else (smallest, best))).2 := by
        by_cases hlt : chromaMiss hue chroma (50 + ((n + 1 : Nat) : ℝ)) < smallest
        · rw [if_pos hlt]
          exact key _ _ ⟨_, exAdd, rfl, rfl⟩ (fun t ht => hlt.le.trans (inv.least t ht)) le_rfl
        · rw [if_neg hlt]
          exact key _ _ ⟨t0, up ht0, hb0, hs0⟩ inv.least (not_lt.1 hlt)
      obtain ⟨m, h1, h2, h3, h4⟩ := ih (n + 1) _ _ inv'
      refine ⟨m, by omega, by omega, ?_, h4⟩
      rcases h3 with h3 | h3
      · left; omega
      · right; exact h3

/-- C36: the key colour is the palette's hue and chroma at tone 50 - d or 50 + d, for some d ≤ n ≤ 49
where n is the number of rounds run; its chroma is at least as close to the request as that of every
tone examined (in particular tone 50); and the search ends early only because the chroma of the key
colour rounds to the request. -/
theorem c36_key_color (hue chroma : ℝ) : ∃ n ≤ 49, ∃ t : ℝ,
    (∃ d : Nat, d ≤ n ∧ (t = 50 + d ∨ t = 50 - d)) ∧
    (TonalPalette.of hue chroma).keyColor = Hct.fromHct hue chroma t ∧
    (∀ d : Nat, d ≤ n → ∀ s : ℝ, s = 50 + d ∨ s = 50 - d →
      |(TonalPalette.of hue chroma).keyColor.getChroma - chroma| ≤
        |(Hct.fromHct hue chroma s).getChroma - chroma|) ∧
    (n < 49 → Fl.round chroma = Fl.round (TonalPalette.of hue chroma).keyColor.getChroma) := by
  have e50 : (50.0 : ℝ) = 50 := by norm_num
  have inv : KeyInv hue chroma 0 (Fl.abs ((Hct.fromHct hue chroma (50.0 : ℝ)).getChroma - chroma))
      (Hct.fromHct hue chroma (50.0 : ℝ)) := by
    rw [e50]
    refine ⟨⟨50, ⟨0, le_rfl, Or.inl (by simp)⟩, rfl, rfl⟩, ?_⟩
    rintro t ⟨d, hd, h⟩
    have : d = 0 := by omega
    subst this
    have : t = 50 := by rcases h with h | h <;> simp [h]
    subst this
    exact le_rfl
  obtain ⟨m, -, h2, h3, s, h4⟩ := keyLoop_spec hue chroma 49 0 _ _ inv
  refine ⟨m, by omega, ?_⟩
  have hk : (TonalPalette.of hue chroma).keyColor = TonalPalette.keyLoop hue chroma
      ((List.range 49).map (· + (0 + 1)))
      (Fl.abs ((Hct.fromHct hue chroma (50.0 : ℝ)).getChroma - chroma))
      (Hct.fromHct hue chroma (50.0 : ℝ)) := rfl
  rw [hk]
  obtain ⟨t, ht, hb, hs⟩ := h4.found
  refine ⟨t, ht, hb, ?_, ?_⟩
  · intro d hd u hu
    have := h4.least u ⟨d, hd, hu⟩
    rw [hs] at this
    rw [hb]
    exact this
  · intro hlt
    rcases h3 with h3 | h3
    · omega
    · exact h3

/-- C36: so its tone request lies in [1, 99] and it is at least as good as tone 50. -/
theorem c36_at_least_tone_50 (hue chroma : ℝ) :
    (∃ t : ℝ, 1 ≤ t ∧ t ≤ 99 ∧ (TonalPalette.of hue chroma).keyColor = Hct.fromHct hue chroma t) ∧
    |(TonalPalette.of hue chroma).keyColor.getChroma - chroma| ≤
      |(Hct.fromHct hue chroma 50).getChroma - chroma| := by
  obtain ⟨n, hn, t, ⟨d, hd, ht⟩, hk, hb, -⟩ := c36_key_color hue chroma
  have hd49 : (d : ℝ) ≤ 49 := by exact_mod_cast hd.trans hn
  have hd0 : (0 : ℝ) ≤ d := by positivity
  refine ⟨⟨t, ?_, ?_, hk⟩, hb 0 (by omega) 50 (Or.inl (by simp))⟩
  · rcases ht with h | h <;> rw [h] <;> linarith
  · rcases ht with h | h <;> rw [h] <;> linarith

/-! ### C37 -/

/-- A palette behaves like hue `hue` and chroma `chroma` for all tones and all histories of reads. -/
def BehavesLike (p : TonalPalette ℝ) (hue chroma : ℝ) : Prop :=
  p.hue = hue ∧ p.chroma = chroma ∧ ∀ ops t,
    ((afterReads p ops).get t).1 = (Hct.fromHct hue chroma (Fl.ofInt t)).toInt

theorem behaves_of (hue chroma : ℝ) : BehavesLike (TonalPalette.of hue chroma) hue chroma :=
  ⟨rfl, rfl, fun ops t => c32_history_independent hue chroma ops t⟩

/-- C37: the standard core palette. -/
theorem c37_core (argb : Int) :
    let h := (Cam16.fromInt argb : Cam16 ℝ).hue
    let c := (Cam16.fromInt argb : Cam16 ℝ).chroma
    let p : CorePalette ℝ := CorePalette.of argb
    BehavesLike p.primary h (max 48 c) ∧ BehavesLike p.secondary h 16 ∧
    BehavesLike p.tertiary (h + 60) 24 ∧ BehavesLike p.neutral h 4 ∧
    BehavesLike p.neutralVariant h 8 ∧ BehavesLike p.error 25 84 := by
  have e48 : (48.0 : ℝ) = 48 := by norm_num
  have e16 : (16.0 : ℝ) = 16 := by norm_num
  have e60 : (60.0 : ℝ) = 60 := by norm_num
  have e24 : (24.0 : ℝ) = 24 := by norm_num
  have e4 : (4.0 : ℝ) = 4 := by norm_num
  have e8 : (8.0 : ℝ) = 8 := by norm_num
  have e25 : (25.0 : ℝ) = 25 := by norm_num
  have e84 : (84.0 : ℝ) = 84 := by norm_num
  simp only [CorePalette.of, CorePalette.ofHueChroma, CorePalette.defaultError, fl_fmax, e48, e16, e60,
    e24, e4, e8, e25, e84]
  exact ⟨behaves_of _ _, behaves_of _ _, behaves_of _ _, behaves_of _ _, behaves_of _ _, behaves_of _ _⟩

/-- C37: the content core palette. -/
theorem c37_content (argb : Int) :
    let h := (Cam16.fromInt argb : Cam16 ℝ).hue
    let c := (Cam16.fromInt argb : Cam16 ℝ).chroma
    let p : CorePalette ℝ := CorePalette.contentOf argb
    BehavesLike p.primary h c ∧ BehavesLike p.secondary h (c / 3) ∧
    BehavesLike p.tertiary (h + 60) (c / 2) ∧ BehavesLike p.neutral h (min (c / 12) 4) ∧
    BehavesLike p.neutralVariant h (min (c / 6) 8) ∧ BehavesLike p.error 25 84 := by
  have e3 : (3.0 : ℝ) = 3 := by norm_num
  have e2 : (2.0 : ℝ) = 2 := by norm_num
  have e12 : (12.0 : ℝ) = 12 := by norm_num
  have e60 : (60.0 : ℝ) = 60 := by norm_num
  have e6 : (6.0 : ℝ) = 6 := by norm_num
  have e4 : (4.0 : ℝ) = 4 := by norm_num
  have e8 : (8.0 : ℝ) = 8 := by norm_num
  have e25 : (25.0 : ℝ) = 25 := by norm_num
  have e84 : (84.0 : ℝ) = 84 := by norm_num
  simp only [CorePalette.contentOf, CorePalette.contentOfHueChroma, CorePalette.defaultError, fl_fmin,
    e3, e2, e60, e12, e6, e4, e8, e25, e84]
  exact ⟨behaves_of _ _, behaves_of _ _, behaves_of _ _, behaves_of _ _, behaves_of _ _, behaves_of _ _⟩

end Mcu.Props
