import Verif.Props.DynamicCache

/-! In every number system, the colour objects inside a scheme that the library makes are ones it makes from integers. -/

namespace Mcu.Lemmas

open TemperatureCache Props

variable {F : Type} [Fl F]

/-- A colour object as the library makes it from an integer. -/
def Standard (h : Hct F) : Prop := ∃ n, h = Hct.fromInt n

theorem standard_fromHct (h c t : F) : Standard (Hct.fromHct h c t) := ⟨_, rfl⟩

theorem standard_fix {h : Hct F} (hs : Standard h) : Standard (Dislike.fixIfDisliked h) := by
  unfold Dislike.fixIfDisliked
  split
  · exact standard_fromHct ..
  · exact hs

theorem standard_keyLoop (hue chroma : F) (l : List Nat) : ∀ (d : F) (b : Hct F), Standard b →
    Standard (TonalPalette.keyLoop hue chroma l d b) := by
  induction l with
  | nil => intro d b h; exact h
  | cons x l ih =>
    intro d b h
    simp only [TonalPalette.keyLoop]
    split
    · exact h
    · refine ih _ _ ?_
      split <;> dsimp only <;> split
      · exact ⟨_, rfl⟩
      · exact ⟨_, rfl⟩
      · exact ⟨_, rfl⟩
      · exact h

theorem standard_of (hue chroma : F) : Standard (TonalPalette.of hue chroma).keyColor :=
  standard_keyLoop _ _ _ _ _ (standard_fromHct ..)

/-! ### The temperature cache -/

/-- All colour objects in the cache are standard. -/
structure Good (s : TemperatureCache F) : Prop where
  input : Standard s.input
  byTemp : ∀ h ∈ s.hctsByTemp, Standard h
  byHue : ∀ h ∈ s.hctsByHue, Standard h
  complement : ∀ h ∈ s.complement, Standard h

/-- A method keeps the cache good, and its result satisfies `P`. -/
def Keeps {α : Type} (m : M F α) (P : α → Prop) : Prop := ∀ s, Good s → ∀ a s', m s = some (a, s') → Good s' ∧ P a

theorem Keeps.pure {α : Type} {a : α} {P : α → Prop} (h : P a) : Keeps (F := F) (pure a) P := by
  intro s hs b s' e
  cases e
  exact ⟨hs, h⟩

theorem Keeps.bind {α β : Type} {m : M F α} {f : α → M F β} {P : α → Prop} {Q : β → Prop} (h : Keeps m P)
    (hf : ∀ a, P a → Keeps (f a) Q) : Keeps (m >>= f) Q := by
  intro s hs b s' e
  change (StateT.bind m f) s = _ at e
  simp only [StateT.bind, Option.bind_eq_bind, Option.bind_eq_some_iff] at e
  obtain ⟨⟨a, t⟩, e1, e2⟩ := e
  obtain ⟨ht, ha⟩ := h s hs a t e1
  exact hf a ha t ht b s' e2

theorem Keeps.weaken {α : Type} {m : M F α} {P Q : α → Prop} (h : Keeps m P) (hPQ : ∀ a, P a → Q a) : Keeps m Q :=
  fun s hs a s' e => ⟨(h s hs a s' e).1, hPQ a (h s hs a s' e).2⟩

theorem Keeps.need {α : Type} {x : Option α} {P : α → Prop} (h : ∀ a, x = some a → P a) : Keeps (F := F) (need x) P := by
  intro s hs a s' e
  rcases x with _ | b
  · cases e
  · cases e; exact ⟨hs, h _ rfl⟩

theorem Keeps.panic {α : Type} {P : α → Prop} : Keeps (F := F) (TemperatureCache.panic (α := α)) P := by
  intro s hs a s' e; cases e

theorem keeps_get : Keeps (F := F) get Good := by
  intro s hs a s' e; cases e; exact ⟨hs, hs⟩

theorem keeps_modify {f : TemperatureCache F → TemperatureCache F} (h : ∀ s, Good s → Good (f s)) :
    Keeps (modify f) (fun _ => True) := by
  intro s hs a s' e; cases e; exact ⟨h s hs, trivial⟩

theorem standard_byHue (x : Hct F) : ∀ h ∈ computeHctsByHue x, Standard h := by
  intro h hh
  obtain ⟨n, -, rfl⟩ := List.mem_map.1 hh
  exact standard_fromHct ..

theorem keeps_byHue : Keeps (F := F) getHctsByHue (fun l => ∀ h ∈ l, Standard h) := by
  refine keeps_get.bind fun s hs => ?_
  split
  · exact .pure hs.byHue
  · refine Keeps.bind (keeps_modify ?_) fun _ _ => .pure ?_
    · exact fun t ht => ⟨ht.input, ht.byTemp, standard_byHue _, ht.complement⟩
    · exact standard_byHue _

theorem keeps_temps : Keeps (F := F) getTempsByHct (fun _ => True) := by
  refine keeps_get.bind fun s hs => ?_
  split
  · exact .pure trivial
  · refine keeps_byHue.bind fun l hl => Keeps.bind (keeps_modify ?_) fun _ _ => .pure trivial
    exact fun t ht => ⟨ht.input, ht.byTemp, ht.byHue, ht.complement⟩

theorem keeps_byTemp : Keeps (F := F) getHctsByTemp (fun l => ∀ h ∈ l, Standard h) := by
  refine keeps_get.bind fun s hs => ?_
  split
  · exact .pure hs.byTemp
  · refine keeps_byHue.bind fun l hl => keeps_temps.bind fun temps _ => ?_
    have hall : ∀ h ∈ (l ++ [s.input]).mergeSort (tempLe temps), Standard h := by
      intro h hh
      rw [List.mem_mergeSort] at hh
      rcases List.mem_append.1 hh with hh | hh
      · exact hl h hh
      · rw [List.mem_singleton.1 hh]; exact hs.input
    refine Keeps.bind (keeps_modify ?_) fun _ _ => .pure ?_
    · exact fun t ht => ⟨ht.input, hall, ht.byHue, ht.complement⟩
    · exact hall

theorem keeps_warmest : Keeps (F := F) getWarmest (fun _ => True) :=
  keeps_byTemp.bind fun _ _ => .need fun _ _ => trivial

theorem keeps_coldest : Keeps (F := F) getColdest (fun _ => True) :=
  keeps_byTemp.bind fun _ _ => .need fun _ _ => trivial

theorem keeps_tempOf (t : List (Int × F)) (h : Hct F) : Keeps (tempOf t h) (fun _ => True) := .need fun _ _ => trivial

theorem keeps_relative (h : Hct F) : Keeps (relativeTemperature h) (fun _ => True) := by
  refine keeps_temps.bind fun _ _ => keeps_warmest.bind fun _ _ => (keeps_tempOf _ _).bind fun _ _ => ?_
  refine keeps_temps.bind fun _ _ => keeps_coldest.bind fun _ _ => (keeps_tempOf _ _).bind fun _ _ => ?_
  refine keeps_temps.bind fun _ _ => (keeps_tempOf _ _).bind fun _ _ => ?_
  refine keeps_temps.bind fun _ _ => keeps_coldest.bind fun _ _ => (keeps_tempOf _ _).bind fun _ _ => ?_
  split <;> exact .pure trivial

theorem keeps_inputRelative : Keeps (F := F) getInputRelativeTemperature (fun _ => True) := by
  refine keeps_get.bind fun s hs => ?_
  split
  · exact .pure trivial
  · refine keeps_temps.bind fun _ _ => keeps_coldest.bind fun _ _ => (keeps_tempOf _ _).bind fun _ _ => ?_
    refine keeps_temps.bind fun _ _ => keeps_warmest.bind fun _ _ => (keeps_tempOf _ _).bind fun _ _ => ?_
    refine keeps_temps.bind fun _ _ => (keeps_tempOf _ _).bind fun _ _ => ?_
    refine Keeps.bind (keeps_modify ?_) fun _ _ => .pure trivial
    exact fun t ht => ⟨ht.input, ht.byTemp, ht.byHue, ht.complement⟩

theorem standard_complementLoop (hcts : List (Hct F)) (temps : List (Int × F)) (a b c d e : F)
    (hh : ∀ h ∈ hcts, Standard h) (l : List Nat) : ∀ (x : F) (ans out : Hct F), Standard ans →
    complementLoop hcts temps a b c d e l x ans = some out → Standard out := by
  induction l with
  | nil => intro x ans out h e; cases e; exact h
  | cons n l ih =>
    intro x ans out h e
    simp only [complementLoop] at e
    split at e
    · exact ih _ _ _ h e
    · split at e
      · cases e
      · next p hp =>
        split at e
        · cases e
        · split at e
          · exact ih _ _ _ (hh p (List.mem_of_getElem? hp)) e
          · exact ih _ _ _ h e

theorem keeps_complement : Keeps (F := F) getComplement Standard := by
  refine keeps_get.bind fun s hs => ?_
  cases hc : s.complement with
  | some c => exact .pure (hs.complement c hc)
  | none =>
    refine keeps_coldest.bind fun _ _ => ?_
    refine keeps_temps.bind fun _ _ => keeps_coldest.bind fun _ _ => (keeps_tempOf _ _).bind fun _ _ => ?_
    refine keeps_warmest.bind fun _ _ => ?_
    refine keeps_temps.bind fun _ _ => keeps_warmest.bind fun _ _ => (keeps_tempOf _ _).bind fun _ _ => ?_
    refine keeps_get.bind fun t ht => ?_
    refine Keeps.bind (P := Standard) (.need fun a ha => ht.byHue a (List.mem_of_getElem? ha)) fun ans hans => ?_
    refine keeps_inputRelative.bind fun _ _ => keeps_get.bind fun u hu => ?_
    refine Keeps.bind (P := Standard) (.need fun a ha => standard_complementLoop _ _ _ _ _ _ _ hu.byHue _ _ _ _ hans ha)
      fun out hout => ?_
    refine Keeps.bind (keeps_modify ?_) fun _ _ => .pure hout
    refine fun t ht => ⟨ht.input, ht.byTemp, ht.byHue, ?_⟩
    intro h hh
    cases hh
    exact hout

theorem keeps_index {α : Type} {l : List α} {P : α → Prop} (h : ∀ a ∈ l, P a) (i : Int) :
    Keeps (indexI64 (F := F) l i) P := by
  unfold indexI64
  split
  · exact .need fun a ha => h a (List.mem_of_getElem? ha)
  · exact .panic

theorem keeps_total (start : Int) (l : List Nat) : ∀ x y : F, Keeps (totalDeltaLoop start l x y) (fun _ => True) := by
  induction l with
  | nil => intro x y; exact .pure trivial
  | cons i l ih =>
    intro x y
    refine keeps_byHue.bind fun h hh => (keeps_index hh _).bind fun c _ => (keeps_relative c).bind fun t _ => ?_
    exact ih _ _

theorem standard_satisfy (h : Hct F) (hs : Standard h) (t d : F) (n : Nat) : ∀ (b : Bool) (k : Nat) (l : List (Hct F)),
    (∀ x ∈ l, Standard x) → ∀ x ∈ satisfyLoop h t d n b k l, Standard x := by
  induction n with
  | zero => intro b k l hl; exact hl
  | succ n ih =>
    intro b k l hl
    simp only [satisfyLoop]
    split
    · apply ih
      intro x hx
      rcases List.mem_append.1 hx with hx | hx
      · exact hl x hx
      · rw [List.mem_singleton.1 hx]; exact hs
    · exact hl

theorem keeps_divisions (start d : Int) (step : F) (fuel : Nat) : ∀ (i : Int) (x y : F) (l : List (Hct F)),
    (∀ h ∈ l, Standard h) → Keeps (divisionsLoop start d step fuel i x y l) (fun l => ∀ h ∈ l, Standard h) := by
  induction fuel with
  | zero => intro i x y l hl; exact .pure hl
  | succ n ih =>
    intro i x y l hl
    rw [divisionsLoop]
    split
    · refine keeps_byHue.bind fun hs hhs => (keeps_index hhs _).bind fun c hc => (keeps_relative c).bind fun t _ => ?_
      have h1 := standard_satisfy c hc (y + Fl.abs (t - x)) step (d - l.length).toNat
        (decide (y + Fl.abs (t - x) ≥ Fl.ofInt (l.length : Nat) * step)) 1 l hl
      dsimp only
      split
      · refine .pure fun h hh => ?_
        rcases List.mem_append.1 hh with hh | hh
        · exact h1 h hh
        · rw [List.eq_of_mem_replicate hh]; exact hc
      · exact ih _ _ _ _ h1
    · exact .pure hl

theorem keeps_fold {α : Type} (f : List (Hct F) → α → M F (List (Hct F))) (hf : ∀ l a, (∀ h ∈ l, Standard h) →
    Keeps (f l a) (fun l => ∀ h ∈ l, Standard h)) (as : List α) : ∀ l : List (Hct F), (∀ h ∈ l, Standard h) →
    Keeps (as.foldlM f l) (fun l => ∀ h ∈ l, Standard h) := by
  induction as with
  | nil => intro l hl; exact .pure hl
  | cons a as ih =>
    intro l hl
    rw [List.foldlM_cons]
    exact (hf l a hl).bind fun l' hl' => ih l' hl'

theorem keeps_pick (input : Hct F) (hi : Standard input) (l : List (Hct F)) (hl : ∀ h ∈ l, Standard h) (n : Int) :
    Keeps (pickAnswers input l n) (fun l => ∀ h ∈ l, Standard h) := by
  refine Keeps.bind (keeps_fold _ (fun l' a hl' => ?_) _ _ ?_) fun b hb => keeps_fold _ (fun l' a hl' => ?_) _ _ hb
  · refine (keeps_index hl _).bind fun c hc => .pure fun h hh => ?_
    rcases List.mem_cons.1 hh with rfl | hh
    · exact hc
    · exact hl' h hh
  · intro h hh; rw [List.mem_singleton.1 hh]; exact hi
  · refine (keeps_index hl _).bind fun c hc => .pure fun h hh => ?_
    rcases List.mem_append.1 hh with hh | hh
    · exact hl' h hh
    · rw [List.mem_singleton.1 hh]; exact hc

theorem keeps_analogous (a b : Option Int) : Keeps (F := F) (analogous a b) (fun l => ∀ h ∈ l, Standard h) := by
  refine keeps_get.bind fun s hs => keeps_byHue.bind fun l hl => (keeps_index hl _).bind fun c hc => ?_
  refine (keeps_relative c).bind fun _ _ => (keeps_total _ _ _ _).bind fun _ _ => (keeps_relative c).bind fun _ _ => ?_
  refine (keeps_divisions _ _ _ _ _ _ _ _ ?_).bind fun l hl => keeps_pick _ hs.input _ hl _
  intro h hh; rw [List.mem_singleton.1 hh]; exact hc

theorem good_new {h : Hct F} (hs : Standard h) : Good (TemperatureCache.new h) :=
  ⟨hs, fun _ h => absurd h List.not_mem_nil, fun _ h => absurd h List.not_mem_nil, fun _ h => nomatch h⟩

theorem Keeps.fresh {α : Type} {m : M F α} {P : α → Prop} (h : Keeps m P) {x : Hct F} (hx : Standard x) {a : α}
    (e : m.run' (TemperatureCache.new x) = some a) : P a := by
  unfold StateT.run' at e
  obtain ⟨⟨b, s⟩, h1, h2⟩ := Option.map_eq_some_iff.1 (show Option.map _ _ = _ from e)
  cases h2
  exact (h _ (good_new hx) _ _ h1).2

/-! ### Schemes -/

/-- The source colour and the key colours of a scheme are standard. -/
structure StandardScheme (s : DynamicScheme F) : Prop where
  source : Standard s.sourceColorHct
  primary : Standard s.primaryPalette.keyColor
  secondary : Standard s.secondaryPalette.keyColor
  tertiary : Standard s.tertiaryPalette.keyColor
  neutral : Standard s.neutralPalette.keyColor
  neutralVariant : Standard s.neutralVariantPalette.keyColor

theorem standard_new (argb : Int) (v : Variant) (c : Option F) (d : Bool) (p1 p2 p3 p4 p5 : TonalPalette F)
    (h1 : Standard p1.keyColor) (h2 : Standard p2.keyColor) (h3 : Standard p3.keyColor) (h4 : Standard p4.keyColor)
    (h5 : Standard p5.keyColor) : StandardScheme (DynamicScheme.new argb v c d p1 p2 p3 p4 p5) :=
  ⟨⟨argb, rfl⟩, h1, h2, h3, h4, h5⟩

/-- Every scheme of the library, and every one assembled from palettes given by hue and chroma. -/
theorem standard_made (s : DynamicScheme F) (h : Made s ∨ Assembled s) : StandardScheme s := by
  have hsrc (argb : Int) : Standard (Hct.fromInt argb : Hct F) := ⟨argb, rfl⟩
  rcases h with ⟨v, argb, d, c, h⟩ | ⟨argb, v, c, d, h1, c1, h2, c2, h3, c3, h4, c4, h5, c5, rfl⟩
  · cases v
    case content =>
      simp only [make, Schemes.content, Option.bind_eq_bind, Option.bind_eq_some_iff] at h
      obtain ⟨l, hl, t, ht, h⟩ := h
      cases h
      exact standard_new _ _ _ _ _ _ _ _ _ (standard_of _ _) (standard_of _ _)
        (standard_fix ((keeps_analogous _ _).fresh (hsrc argb) hl t (List.mem_of_getLast? ht))) (standard_of _ _) (standard_of _ _)
    case fidelity =>
      simp only [make, Schemes.fidelity, Option.bind_eq_bind, Option.bind_eq_some_iff] at h
      obtain ⟨t, ht, h⟩ := h
      cases h
      exact standard_new _ _ _ _ _ _ _ _ _ (standard_of _ _) (standard_of _ _)
        (standard_fix (keeps_complement.fresh (hsrc argb) ht)) (standard_of _ _) (standard_of _ _)
    case vibrant =>
      simp only [make, Schemes.vibrant, Option.bind_eq_bind, Option.bind_eq_some_iff] at h
      obtain ⟨_, _, _, _, h⟩ := h
      cases h
      exact standard_new _ _ _ _ _ _ _ _ _ (standard_of _ _) (standard_of _ _) (standard_of _ _) (standard_of _ _) (standard_of _ _)
    case expressive =>
      simp only [make, Schemes.expressive, Option.bind_eq_bind, Option.bind_eq_some_iff] at h
      obtain ⟨_, _, _, _, h⟩ := h
      cases h
      exact standard_new _ _ _ _ _ _ _ _ _ (standard_of _ _) (standard_of _ _) (standard_of _ _) (standard_of _ _) (standard_of _ _)
    all_goals
      cases h
      exact standard_new _ _ _ _ _ _ _ _ _ (standard_of _ _) (standard_of _ _) (standard_of _ _) (standard_of _ _) (standard_of _ _)
  · exact standard_new _ _ _ _ _ _ _ _ _ (standard_of _ _) (standard_of _ _) (standard_of _ _) (standard_of _ _) (standard_of _ _)

end Mcu.Lemmas
