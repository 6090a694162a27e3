import Verif.Model.TemperatureCache

/-! The temperature cache computes values that depend on its input colour only.  For any arithmetic. -/

namespace Mcu.TemperatureCache

open MathUtils ColorUtils

variable {F : Type} [Fl F] {α β : Type}

/-- From every cache satisfying `P` the method answers `v` (or panics, if `v` is `none`) and leaves a
cache satisfying `Q`. -/
def Run (P : TemperatureCache F → Prop) (m : M F α) (v : Option α) (Q : TemperatureCache F → Prop) : Prop :=
  ∀ c, P c → (m c).map Prod.fst = v ∧ ∀ a c', m c = some (a, c') → Q c'

omit [Fl F] in
theorem run_bind {P Q R : TemperatureCache F → Prop} {m : M F α} {v : Option α} {f : α → M F β} {g : α → Option β}
    (h1 : Run P m v Q) (h2 : ∀ a, v = some a → Run Q (f a) (g a) R) : Run P (m >>= f) (v.bind g) R := by
  intro c hc
  obtain ⟨e1, e2⟩ := h1 c hc
  have hb : (m >>= f) c = (m c).bind fun p => f p.1 p.2 := rfl
  rw [hb]
  cases hm : m c with
  | none => rw [hm] at e1; rw [← e1]; exact ⟨rfl, fun a c' h => by cases h⟩
  | some p =>
    obtain ⟨a, c'⟩ := p
    rw [hm] at e1
    have hv : v = some a := e1.symm
    have := h2 a hv c' (e2 a c' hm)
    rw [hv]
    exact this

omit [Fl F] in
theorem run_pure (P : TemperatureCache F → Prop) (a : α) : Run P (pure a : M F α) (some a) P := by
  intro c hc
  refine ⟨rfl, fun a' c' h => ?_⟩
  have : (a, c) = (a', c') := Option.some.inj h
  rw [← (Prod.mk.inj this).2]
  exact hc

omit [Fl F] in
theorem run_need (P : TemperatureCache F → Prop) (o : Option α) : Run P (need o : M F α) o P := by
  cases o with
  | none => exact fun c _ => ⟨rfl, fun a c' h => by cases h⟩
  | some a => exact run_pure P a

omit [Fl F] in
theorem run_get {P Q : TemperatureCache F → Prop} {f : TemperatureCache F → M F β} {v : Option β}
    (h : ∀ c0, P c0 → Run (fun c => c = c0) (f c0) v Q) : Run P (get >>= f) v Q :=
  fun c hc => h c hc c rfl

omit [Fl F] in
theorem run_modify {P Q : TemperatureCache F → Prop} {g : TemperatureCache F → TemperatureCache F}
    (h : ∀ c, P c → Q (g c)) : Run P (modify g : M F PUnit) (some ⟨⟩) Q := by
  intro c hc
  refine ⟨rfl, fun a c' h' => ?_⟩
  have : (PUnit.unit, g c) = (a, c') := Option.some.inj h'
  rw [← (Prod.mk.inj this).2]
  exact h c hc

omit [Fl F] in
theorem Run.weaken {P P' Q Q' : TemperatureCache F → Prop} {m : M F α} {v : Option α} (h : Run P m v Q)
    (hp : ∀ c, P' c → P c) (hq : ∀ c, Q c → Q' c) : Run P' m v Q' :=
  fun c hc => ⟨(h c (hp c hc)).1, fun a c' e => hq _ ((h c (hp c hc)).2 a c' e)⟩

/-! ### The values -/

variable (input : Hct F)

/-- The hue wheel. -/
def wheel : List (Hct F) := computeHctsByHue input

/-- The temperatures. -/
def temps : List (Int × F) := computeTemps (wheel input ++ [input])

/-- The colours sorted by temperature. -/
def byTemp : List (Hct F) := (wheel input ++ [input]).mergeSort (tempLe (temps input))

def warmest : Option (Hct F) := (byTemp input).getLast?

def coldest : Option (Hct F) := (byTemp input).head?

def temp (h : Hct F) : Option F := (temps input).lookup h.toInt

def relative (h : Hct F) : Option F := do
  let w ← temp input (← warmest input)
  let c ← temp input (← coldest input)
  let range := w - c
  let d := (← temp input h) - (← temp input (← coldest input))
  if range == 0.0 then return 0.5
  return d / range

def inputRelative : Option F := do
  let c ← temp input (← coldest input)
  let range := (← temp input (← warmest input)) - c
  let d := (← temp input input) - c
  return if range == 0.0 then 0.5 else d / range

def theComplement : Option (Hct F) := do
  let coldestHue := (← coldest input).getHue
  let coldestTemp ← temp input (← coldest input)
  let warmestHue := (← warmest input).getHue
  let warmestTemp ← temp input (← warmest input)
  let range := warmestTemp - coldestTemp
  let startHueIsColdestToWarmest := isBetween input.getHue coldestHue warmestHue
  let startHue := if startHueIsColdestToWarmest then warmestHue else coldestHue
  let endHue := if startHueIsColdestToWarmest then coldestHue else warmestHue
  let answer ← (wheel input)[toUsize (Fl.round input.getHue)]?
  let complementRelativeTemp := 1.0 - (← inputRelative input)
  complementLoop (wheel input) (temps input) startHue endHue
      coldestTemp range complementRelativeTemp (List.range 360) 1000.0 answer

/-- What holds of every cache made for `input`: every field is empty or has its value. -/
structure Inv (c : TemperatureCache F) : Prop where
  hInput : c.input = input
  hWheel : c.hctsByHue = [] ∨ c.hctsByHue = wheel input
  hTemps : c.tempsByHct = [] ∨ (c.tempsByHct = temps input ∧ c.hctsByHue = wheel input)
  hByTemp : c.hctsByTemp = [] ∨ (c.hctsByTemp = byTemp input ∧ c.tempsByHct = temps input ∧
    c.hctsByHue = wheel input)
  hRelative : c.inputRelativeTemperature = -1.0 ∨ inputRelative input = some c.inputRelativeTemperature
  hComplement : c.complement = none ∨ theComplement input = c.complement

/-- The fields that `get_complement` reads directly are filled. -/
structure Filled (c : TemperatureCache F) : Prop extends Inv input c where
  hasWheel : c.hctsByHue = wheel input
  hasTemps : c.tempsByHct = temps input

theorem inv_new : Inv input (new input) :=
  ⟨rfl, Or.inl rfl, Or.inl rfl, Or.inl rfl, Or.inl rfl, Or.inl rfl⟩

theorem wheel_ne : (wheel input) ≠ [] := by
  intro h
  have := congrArg List.length h
  simp [wheel, computeHctsByHue] at this

variable {input}

attribute [local irreducible] computeHctsByHue computeTemps

/-- A property of caches that the methods keep. -/
inductive Kept (input : Hct F) : (TemperatureCache F → Prop) → Prop
  | inv : Kept input (Inv input)
  | filled : Kept input (Filled input)

theorem run_getHctsByHue {P : TemperatureCache F → Prop} (hP : Kept input P) :
    Run P getHctsByHue (some (wheel input)) (fun c => P c ∧ c.hctsByHue = wheel input) := by
  unfold getHctsByHue
  apply run_get
  intro c0 hc0
  have hinv : Inv input c0 := by
    cases hP with
    | inv => exact hc0
    | filled => exact hc0.toInv
  by_cases he : c0.hctsByHue = []
  · simp only [he, List.isEmpty_nil, Bool.not_true]
    have hw : computeHctsByHue c0.input = wheel input := by rw [hinv.hInput]; rfl
    rw [hw]
    have hnew : P { c0 with hctsByHue := wheel input } := by
      have hi : Inv input { c0 with hctsByHue := wheel input } := by
        refine ⟨hinv.hInput, Or.inr rfl, ?_, ?_, hinv.hRelative, hinv.hComplement⟩
        · rcases hinv.hTemps with h | ⟨h1, h2⟩
          · exact Or.inl h
          · exact Or.inr ⟨h1, rfl⟩
        · rcases hinv.hByTemp with h | ⟨h1, h2, h3⟩
          · exact Or.inl h
          · exact Or.inr ⟨h1, h2, rfl⟩
      cases hP with
      | inv => exact hi
      | filled => exact ⟨hi, rfl, hc0.hasTemps⟩
    intro c hc
    subst hc
    refine ⟨rfl, ?_⟩
    intro a c' h
    have : (wheel input, { c with hctsByHue := wheel input }) = (a, c') := Option.some.inj h
    rw [← (Prod.mk.inj this).2]
    exact ⟨hnew, rfl⟩
  · have hw : c0.hctsByHue = wheel input := hinv.hWheel.resolve_left he
    have hb : (!c0.hctsByHue.isEmpty) = true := by simpa using he
    intro c hc
    subst hc
    simp only [hb, if_true]
    refine ⟨by rw [hw]; rfl, ?_⟩
    intro a c' h
    have : (c.hctsByHue, c) = (a, c') := Option.some.inj h
    rw [← (Prod.mk.inj this).2]
    exact ⟨hc0, hw⟩

attribute [local semireducible] computeTemps in
theorem temps_ne : temps input ≠ [] := by
  have hins : ∀ (m : List (Int × F)) k v, mapInsert m k v ≠ [] := by
    intro m k v
    unfold mapInsert
    split
    · next h =>
      intro h0
      rw [List.map_eq_nil_iff] at h0
      rw [h0] at h
      simp at h
    · simp
  unfold temps computeTemps
  rw [List.foldl_append]
  exact hins _ _ _

theorem byTemp_ne : byTemp input ≠ [] := by
  intro h
  have := congrArg List.length h
  simp [byTemp] at this

theorem Kept.inv' {P : TemperatureCache F → Prop} (hP : Kept input P) {c : TemperatureCache F} (h : P c) :
    Inv input c := by
  cases hP with
  | inv => exact h
  | filled => exact h.toInv

theorem run_getTempsByHct : Run (Inv input) getTempsByHct (some (temps input)) (Filled input) := by
  unfold getTempsByHct
  apply run_get
  intro c0 hc0
  by_cases he : c0.tempsByHct = []
  · simp only [he, List.isEmpty_nil, Bool.not_true]
    have h1 : Run (fun c => c = c0) (getHctsByHue (F := F)) (some (wheel input))
        (fun c => Inv input c ∧ c.hctsByHue = wheel input) :=
      (run_getHctsByHue Kept.inv).weaken (fun c h => by rw [h]; exact hc0) (fun c h => h)
    have h2 := run_bind (f := fun byHue => (do
        modify fun s => { s with tempsByHct := computeTemps (byHue ++ [c0.input]) }
        return computeTemps (byHue ++ [c0.input]) : M F (List (Int × F))))
      (g := fun byHue => some (computeTemps (byHue ++ [c0.input]))) (R := Filled input) h1 ?_
    · rw [Option.bind_some, hc0.hInput] at h2
      rw [hc0.hInput]
      exact h2
    · intro byHue hb
      obtain rfl := Option.some.inj hb
      rw [hc0.hInput]
      have h3 : Run (fun c => Inv input c ∧ c.hctsByHue = wheel input)
          (modify fun s => { s with tempsByHct := temps input } : M F PUnit) (some ⟨⟩) (Filled input) := by
        apply run_modify
        rintro c ⟨hi, hw⟩
        refine ⟨⟨hi.hInput, hi.hWheel, Or.inr ⟨rfl, hw⟩, ?_, hi.hRelative, hi.hComplement⟩, hw, rfl⟩
        rcases hi.hByTemp with h | ⟨h1, h2, h3⟩
        · exact Or.inl h
        · exact Or.inr ⟨h1, rfl, hw⟩
      exact run_bind h3 (fun _ _ => run_pure _ _)
  · obtain ⟨ht, hw⟩ := hc0.hTemps.resolve_left he
    have hb : (!c0.tempsByHct.isEmpty) = true := by simpa using he
    simp only [hb, if_true]
    rw [ht]
    exact (run_pure (Filled input) (temps input)).weaken (fun c h => by rw [h]; exact ⟨hc0, hw, ht⟩) (fun c h => h)

theorem run_getHctsByTemp : Run (Inv input) getHctsByTemp (some (byTemp input)) (Filled input) := by
  unfold getHctsByTemp
  apply run_get
  intro c0 hc0
  by_cases he : c0.hctsByTemp = []
  · simp only [he, List.isEmpty_nil, Bool.not_true]
    have h1 : Run (fun c => c = c0) (getHctsByHue (F := F)) (some (wheel input)) (Inv input) :=
      (run_getHctsByHue Kept.inv).weaken (fun c h => by rw [h]; exact hc0) (fun c h => h.1)
    have h2 := run_bind (f := fun byHue => (do
        let temps ← getTempsByHct
        modify fun s => { s with hctsByTemp := (byHue ++ [c0.input]).mergeSort (tempLe temps) }
        return (byHue ++ [c0.input]).mergeSort (tempLe temps) : M F (List (Hct F))))
      (g := fun byHue => some ((byHue ++ [c0.input]).mergeSort (tempLe (temps input)))) (R := Filled input) h1 ?_
    · rw [Option.bind_some, hc0.hInput] at h2
      rw [hc0.hInput]
      exact h2
    · intro byHue hb
      obtain rfl := Option.some.inj hb
      rw [hc0.hInput]
      refine run_bind (v := some (temps input)) (g := fun t => some ((wheel input ++ [input]).mergeSort (tempLe t)))
        run_getTempsByHct ?_
      intro t ht
      obtain rfl := Option.some.inj ht
      have h3 : Run (Filled input)
          (modify fun s => { s with hctsByTemp := byTemp input } : M F PUnit) (some ⟨⟩) (Filled input) := by
        apply run_modify
        intro c hf
        exact ⟨⟨hf.hInput, hf.hWheel, hf.hTemps, Or.inr ⟨rfl, hf.hasTemps, hf.hasWheel⟩, hf.hRelative, hf.hComplement⟩,
          hf.hasWheel, hf.hasTemps⟩
      exact run_bind h3 (fun _ _ => run_pure _ _)
  · obtain ⟨hb', ht, hw⟩ := hc0.hByTemp.resolve_left he
    have hb : (!c0.hctsByTemp.isEmpty) = true := by simpa using he
    simp only [hb, if_true]
    rw [hb']
    exact (run_pure (Filled input) (byTemp input)).weaken (fun c h => by rw [h]; exact ⟨hc0, hw, ht⟩) (fun c h => h)

theorem Filled.inv {c : TemperatureCache F} (h : Filled input c) : Inv input c := h.toInv

theorem run_getWarmest : Run (Inv input) getWarmest (warmest input) (Filled input) :=
  run_bind run_getHctsByTemp fun a ha => by
    obtain rfl := Option.some.inj ha
    exact run_need _ _

theorem run_getColdest : Run (Inv input) getColdest (coldest input) (Filled input) :=
  run_bind run_getHctsByTemp fun a ha => by
    obtain rfl := Option.some.inj ha
    exact run_need _ _

theorem run_temps' : Run (Filled input) getTempsByHct (some (temps input)) (Filled input) :=
  run_getTempsByHct.weaken (fun _ h => h.inv) (fun _ h => h)

theorem run_warmest' : Run (Filled input) getWarmest (warmest input) (Filled input) :=
  run_getWarmest.weaken (fun _ h => h.inv) (fun _ h => h)

theorem run_coldest' : Run (Filled input) getColdest (coldest input) (Filled input) :=
  run_getColdest.weaken (fun _ h => h.inv) (fun _ h => h)

/-- Reading the temperatures and looking up a colour. -/
theorem run_temps_bind {R : TemperatureCache F → Prop} {f : List (Int × F) → M F β} {v : Option β}
    {P : TemperatureCache F → Prop} (hP : ∀ c, P c → Inv input c)
    (h : Run (Filled input) (f (temps input)) v R) : Run P (getTempsByHct >>= f) v R :=
  run_bind (v := some (temps input)) (g := fun _ => v) (run_getTempsByHct.weaken hP (fun _ h => h)) fun a ha => by
    obtain rfl := Option.some.inj ha
    exact h

theorem run_relativeTemperature (h : Hct F) :
    Run (Inv input) (relativeTemperature h) (relative input h) (Filled input) := by
  unfold relativeTemperature relative
  refine run_temps_bind (fun _ h => h) ?_
  refine run_bind run_warmest' fun w hw => ?_
  refine run_bind (run_need _ _) fun wt hwt => ?_
  refine run_temps_bind (fun _ h => h.inv) ?_
  refine run_bind run_coldest' fun c hc => ?_
  refine run_bind (run_need _ _) fun ct hct => ?_
  refine run_temps_bind (fun _ h => h.inv) ?_
  refine run_bind (run_need _ _) fun t ht => ?_
  refine run_temps_bind (fun _ h => h.inv) ?_
  refine run_bind run_coldest' fun c hc => ?_
  refine run_bind (run_need _ _) fun ct' hct' => ?_
  simp only
  split
  · exact run_pure _ _
  · exact run_pure _ _

theorem run_getInputRelativeTemperature (hneg : ¬ ((-1.0 : F) ≥ 0.0)) :
    Run (Inv input) getInputRelativeTemperature (inputRelative input) (Inv input) ∧
    Run (Filled input) getInputRelativeTemperature (inputRelative input) (Filled input) := by
  have hcomp : inputRelative input = (do
      let c ← temp input (← coldest input)
      let range := (← temp input (← warmest input)) - c
      let d := (← temp input input) - c
      return if range == 0.0 then 0.5 else d / range) := rfl
  have main : ∀ c0, Inv input c0 → Run (fun c => c = c0) (do
      let coldestTemp ← tempOf (← getTempsByHct) (← getColdest)
      let range := (← tempOf (← getTempsByHct) (← getWarmest)) - coldestTemp
      let differenceFromColdest := (← tempOf (← getTempsByHct) c0.input) - coldestTemp
      let inputRelativeTemp : F := if range == 0.0 then 0.5 else differenceFromColdest / range
      modify fun s => { s with inputRelativeTemperature := inputRelativeTemp }
      return inputRelativeTemp : M F F) (inputRelative input) (Filled input) := by
    intro c0 hc0
    rw [hc0.hInput]
    have hval : ∀ r : F, inputRelative input = some r →
        Run (Filled input) (do
          modify fun s => { s with inputRelativeTemperature := r }
          return r : M F F) (some r) (Filled input) := by
      intro r hr
      have h3 : Run (Filled input)
          (modify fun s => { s with inputRelativeTemperature := r } : M F PUnit) (some ⟨⟩) (Filled input) := by
        apply run_modify
        intro c hf
        exact ⟨⟨hf.hInput, hf.hWheel, hf.hTemps, hf.hByTemp, Or.inr hr, hf.hComplement⟩, hf.hasWheel, hf.hasTemps⟩
      exact run_bind h3 (fun _ _ => run_pure _ _)
    rw [hcomp]
    refine run_temps_bind (fun c h => by rw [h]; exact hc0) ?_
    refine run_bind run_coldest' fun c hc => ?_
    refine run_bind (run_need _ _) fun ct hct => ?_
    refine run_temps_bind (fun _ h => h.inv) ?_
    refine run_bind run_warmest' fun w hw => ?_
    refine run_bind (run_need _ _) fun wt hwt => ?_
    refine run_temps_bind (fun _ h => h.inv) ?_
    refine run_bind (run_need _ _) fun t ht => ?_
    refine hval _ ?_
    have e1 : temp input c = some ct := hct
    have e2 : temp input w = some wt := hwt
    have e3 : temp input input = some t := ht
    rw [hcomp]
    simp only [hc, hw, e1, e2, e3, Option.bind_eq_bind, Option.bind_some, Option.pure_def]
  have both : ∀ P : TemperatureCache F → Prop, Kept input P → Run P getInputRelativeTemperature (inputRelative input) P := by
    intro P hP
    unfold getInputRelativeTemperature
    apply run_get
    intro c0 hc0
    have hinv := hP.inv' hc0
    by_cases hge : c0.inputRelativeTemperature ≥ 0.0
    · rw [if_pos hge]
      rcases hinv.hRelative with h | h
      · rw [h] at hge; exact absurd hge hneg
      · rw [h]
        exact (run_pure P _).weaken (fun c h => by rw [h]; exact hc0) (fun c h => h)
    · rw [if_neg hge]
      refine (main c0 hinv).weaken (fun _ h => h) ?_
      intro c hf
      cases hP with
      | inv => exact hf.inv
      | filled => exact hf
  exact ⟨both _ Kept.inv, both _ Kept.filled⟩

/-! ### The complement -/

theorem run_getComplement (hneg : ¬ ((-1.0 : F) ≥ 0.0)) :
    Run (Inv input) getComplement (theComplement input) (Inv input) := by
  unfold getComplement
  apply run_get
  intro c0 hc0
  cases hcomp : c0.complement with
  | some a =>
    rcases hc0.hComplement with h | h
    · rw [h] at hcomp; cases hcomp
    · rw [h, hcomp]
      exact (run_pure (Inv input) a).weaken (fun c h => by rw [h]; exact hc0) (fun c h => h)
  | none =>
    simp only
    rw [hc0.hInput]
    unfold theComplement
    refine run_bind (run_getColdest.weaken (fun c h => by rw [h]; exact hc0) (fun _ h => h)) fun c hc => ?_
    refine run_temps_bind (fun _ h => h.inv) ?_
    refine run_bind run_coldest' fun c' hc' => ?_
    refine run_bind (run_need _ _) fun ct hct => ?_
    refine run_bind run_warmest' fun w hw => ?_
    refine run_temps_bind (fun _ h => h.inv) ?_
    refine run_bind run_warmest' fun w' hw' => ?_
    refine run_bind (run_need _ _) fun wt hwt => ?_
    refine run_get fun c1 hc1 => ?_
    rw [hc1.hasWheel]
    refine run_bind ((run_need (Filled input) _).weaken (fun c h => by rw [h]; exact hc1) (fun _ h => h)) fun answer ha => ?_
    refine run_bind (run_getInputRelativeTemperature hneg).2 fun r hr => ?_
    refine run_get fun c2 hc2 => ?_
    rw [hc2.hasWheel, hc2.hasTemps]
    -- the value that is stored is the complement
    have hval : ∀ o : Option (Hct F), (∀ a, o = some a → theComplement input = some a) →
        Run (fun c => c = c2) (do
          let answer ← need o
          modify fun s => { s with complement := some answer }
          return answer : M F (Hct F)) o (Inv input) := by
      intro o ho
      have : Run (fun c => c = c2) (do
          let answer ← need o
          modify fun s => { s with complement := some answer }
          return answer : M F (Hct F)) (o.bind fun a => some a) (Inv input) := by
        refine run_bind ((run_need (Filled input) o).weaken (fun c h => by rw [h]; exact hc2) (fun _ h => h)) fun a hoa => ?_
        have h3 : Run (Filled input)
            (modify fun s => { s with complement := some a } : M F PUnit) (some ⟨⟩) (Inv input) := by
          apply run_modify
          intro c hf
          exact ⟨hf.hInput, hf.hWheel, hf.hTemps, hf.hByTemp, hf.hRelative, Or.inr (ho a hoa)⟩
        exact run_bind h3 (fun _ _ => run_pure _ _)
      cases o <;> exact this
    refine hval _ ?_
    intro a ha'
    have ec : temp input c' = some ct := hct
    have ew : temp input w' = some wt := hwt
    have hcc : c = c' := Option.some.inj (hc.symm.trans hc')
    have hww : w = w' := Option.some.inj (hw.symm.trans hw')
    subst hcc hww
    unfold theComplement
    simp only [hc, hw, ec, ew, ha, hr, Option.bind_eq_bind, Option.bind_some]
    exact ha'

/-! ### Analogous colours -/

/-- `list[i]`. -/
def at? {α : Type} (l : List α) (i : Int) : Option α := if 0 ≤ i then l[i.toNat]? else none

omit [Fl F] in
theorem run_indexI64 (P : TemperatureCache F → Prop) (l : List α) (i : Int) : Run P (indexI64 l i : M F α) (at? l i) P := by
  unfold indexI64 at?
  split
  · exact run_need _ _
  · exact fun c _ => ⟨rfl, fun a c' h => by cases h⟩

variable (input) in
/-- The value of `totalDeltaLoop`. -/
def totalDelta (startHue : Int) : List Nat → F → F → Option F
  | [], _, total => some total
  | i :: rest, lastTemp, total => do
    let hct ← at? (wheel input) (sanitizeDegreesInt (startHue + i))
    let t ← relative input hct
    totalDelta startHue rest t (total + Fl.abs (t - lastTemp))

theorem run_wheel_bind {R : TemperatureCache F → Prop} {f : List (Hct F) → M F β} {v : Option β}
    (h : Run (Inv input) (f (wheel input)) v R) : Run (Inv input) (getHctsByHue >>= f) v R :=
  run_bind (v := some (wheel input)) (g := fun _ => v)
    ((run_getHctsByHue Kept.inv).weaken (fun _ h => h) (fun _ h => h.1)) fun a ha => by
    obtain rfl := Option.some.inj ha
    exact h

theorem run_relative' (h : Hct F) : Run (Inv input) (relativeTemperature h) (relative input h) (Inv input) :=
  (run_relativeTemperature h).weaken (fun _ h => h) (fun _ h => h.inv)

theorem run_totalDeltaLoop (startHue : Int) (l : List Nat) : ∀ (lastTemp total : F),
    Run (Inv input) (totalDeltaLoop startHue l lastTemp total) (totalDelta input startHue l lastTemp total) (Inv input) := by
  induction l with
  | nil => exact fun _ _ => run_pure _ _
  | cons i rest ih =>
    intro lastTemp total
    unfold totalDeltaLoop totalDelta
    refine run_wheel_bind ?_
    refine run_bind (run_indexI64 _ _ _) fun hct _ => ?_
    refine run_bind (run_relative' _) fun t _ => ?_
    exact ih _ _

variable (input) in
/-- The value of `divisionsLoop`. -/
def divisionsOf (startHue divisions : Int) (tempStep : F) : Nat → Int → F → F → List (Hct F) → Option (List (Hct F))
  | 0, _, _, _, allColors => some allColors
  | fuel + 1, hueAddend, lastTemp, totalTempDelta, allColors =>
    if (allColors.length : Int) < divisions then do
      let hct ← at? (wheel input) (sanitizeDegreesInt (startHue + hueAddend))
      let t ← relative input hct
      let total := totalTempDelta + Fl.abs (t - lastTemp)
      let next := satisfyLoop hct total tempStep (divisions - allColors.length).toNat
        (decide (total ≥ Fl.ofInt (allColors.length : Nat) * tempStep)) 1 allColors
      if hueAddend + 1 > 360 then some (next ++ List.replicate (divisions - next.length).toNat hct)
      else divisionsOf startHue divisions tempStep fuel (hueAddend + 1) t total next
    else some allColors

theorem run_divisionsLoop (startHue divisions : Int) (tempStep : F) (fuel : Nat) :
    ∀ (hueAddend : Int) (lastTemp total : F) (allColors : List (Hct F)),
    Run (Inv input) (divisionsLoop startHue divisions tempStep fuel hueAddend lastTemp total allColors)
      (divisionsOf input startHue divisions tempStep fuel hueAddend lastTemp total allColors) (Inv input) := by
  induction fuel with
  | zero => exact fun _ _ _ _ => run_pure _ _
  | succ fuel ih =>
    intro hueAddend lastTemp total allColors
    unfold divisionsLoop divisionsOf
    by_cases hl : (allColors.length : Int) < divisions
    · simp only [hl, if_true]
      refine run_wheel_bind ?_
      refine run_bind (run_indexI64 _ _ _) fun hct _ => ?_
      refine run_bind (run_relative' _) fun t _ => ?_
      split
      · exact run_pure _ _
      · exact ih _ _ _ _
    · simp only [hl, if_false]
      exact run_pure _ _

/-- The value of `pickAnswers`. -/
def pickOf (input : Hct F) (allColors : List (Hct F)) (count : Int) : Option (List (Hct F)) := do
  let len : Int := allColors.length
  let increaseHueCount : Int := Fl.toI64 (Fl.floor ((Fl.ofInt (count - 1) : F) / 2.0))
  let before ← (List.range increaseHueCount.toNat).foldlM (fun answers (i : Nat) => do
    let c ← at? allColors (wrapIndex len (0 - (i + 1)))
    return c :: answers) [input]
  let decreaseHueCount := count - increaseHueCount - 1
  (List.range decreaseHueCount.toNat).foldlM (fun answers (i : Nat) => do
    let c ← at? allColors (wrapIndex len (i + 1))
    return answers ++ [c]) before

omit [Fl F] in
theorem run_foldlM {γ : Type} (P : TemperatureCache F → Prop) (f : γ → β → M F γ) (g : γ → β → Option γ)
    (h : ∀ a b, Run P (f a b) (g a b) P) (l : List β) : ∀ a, Run P (l.foldlM f a) (l.foldlM g a) P := by
  induction l with
  | nil => exact fun a => run_pure _ _
  | cons b rest ih =>
    intro a
    rw [List.foldlM_cons, List.foldlM_cons]
    exact run_bind (h a b) fun x _ => ih x

theorem run_pickAnswers (P : TemperatureCache F → Prop) (h : Hct F) (allColors : List (Hct F)) (count : Int) :
    Run P (pickAnswers h allColors count) (pickOf h allColors count) P := by
  unfold pickAnswers pickOf
  refine run_bind (run_foldlM _ _ _ ?_ _ _) fun before _ => run_foldlM _ _ _ ?_ _ _
  · exact fun a b => run_bind (run_indexI64 _ _ _) fun c _ => run_pure _ _
  · exact fun a b => run_bind (run_indexI64 _ _ _) fun c _ => run_pure _ _

variable (input) in
/-- The value of `analogous`. -/
def analogousOf (count divisions : Option Int) : Option (List (Hct F)) := do
  let count := count.getD 5
  let divisions := divisions.getD 12
  let startHue : Int := Fl.toI64 (Fl.round input.getHue)
  let startHct ← at? (wheel input) startHue
  let startTemp ← relative input startHct
  let total ← totalDelta input startHue (List.range 360) startTemp 0.0
  let tempStep := total / Fl.ofInt divisions
  let lastTemp ← relative input startHct
  let allColors ← divisionsOf input startHue divisions tempStep 360 1 lastTemp 0.0 [startHct]
  pickOf input allColors count

theorem run_analogous (count divisions : Option Int) :
    Run (Inv input) (analogous count divisions) (analogousOf input count divisions) (Inv input) := by
  unfold analogous analogousOf
  refine run_get fun c0 hc0 => ?_
  rw [hc0.hInput]
  refine Run.weaken (P := Inv input) ?_ (fun c h => by rw [h]; exact hc0) (fun _ h => h)
  refine run_wheel_bind ?_
  refine run_bind (run_indexI64 _ _ _) fun startHct _ => ?_
  refine run_bind (run_relative' _) fun t _ => ?_
  refine run_bind (run_totalDeltaLoop _ _ _ _) fun total _ => ?_
  refine run_bind (run_relative' _) fun t _ => ?_
  refine run_bind (run_divisionsLoop _ _ _ _ _ _ _ _) fun all _ => ?_
  exact run_pickAnswers _ _ _ _

end Mcu.TemperatureCache
