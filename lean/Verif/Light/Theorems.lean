import Verif.Light.Lemmas
/-
C19-C22: bulbs, texts of traffic lights and the V2I mirror.
-/
namespace Verif.Light

/-! ### C19 -/

/-- **C19.** Two bulbs are the same element of a light (`find`/`emplace` treat them as equivalent)
iff colour, status and shape all agree. -/
theorem C19_identity (a b : Bulb) :
    contains [a] b = true ↔ a.color = b.color ∧ a.status = b.status ∧ a.shape = b.shape := by
  rw [contains_iff, List.mem_singleton]
  constructor
  · rintro rfl; exact ⟨rfl, rfl, rfl⟩
  · rintro ⟨h1, h2, h3⟩; cases a; cases b; simp_all

/-- **C19.** After adding bulb `a`, a light contains `a` and what it contained before, and adding a
bulb that is there already changes nothing. -/
theorem C19_emplace (l : List Bulb) (hl : Ordered l) (a b : Bulb) :
    (contains (emplace a l) b = true ↔ b = a ∨ contains l b = true) ∧ Ordered (emplace a l) ∧
    (contains l a = true → emplace a l = l) := by
  refine ⟨?_, ordered_emplace hl, fun h => ?_⟩
  · rw [contains_iff, contains_iff, mem_emplace]
  · refine (ordered_emplace hl).ext hl fun c => ?_
    rw [contains_iff] at h
    rw [mem_emplace]
    constructor
    · rintro (rfl | hc)
      · exact h
      · exact hc
    · exact Or.inr

example : ∃ l, Ordered l ∧ l.length = 2 ∧ contains l ⟨.red, .flashing, .upperLeft⟩ = true ∧
    contains l ⟨.red, .solidOn, .upperLeft⟩ = false :=
  ⟨[⟨.green, .solidOn, .circle⟩, ⟨.red, .flashing, .upperLeft⟩], by
    simp only [Ordered]; decide +kernel, rfl, by decide +kernel, by decide +kernel⟩

/-! ### C20 -/

/-- **C20.** Parsing the text of any bulb yields the bulb. -/
theorem C20_bulb (b : Bulb) : parseBulb b.print = some b := parse_print b

/-- **C20.** What texts mean: a text that begins with a non-blank is read as a bulb iff it names it. -/
theorem C20_names (p : Text) (b : Bulb) (hp : ∀ x ∈ p.head?, ¬ isSpace x) : parseBulb p = some b ↔ Names p b :=
  ⟨names_parse hp, parse_names hp⟩

example : Names "amber  straight".toList ⟨.yellow, .solidOn, .up⟩ ∧ Names "unknown".toList ⟨.unknown, .solidOn, .circle⟩ ∧
    ¬ Names "unknown".toList ⟨.green, .unknown, .circle⟩ := by
  refine ⟨(C20_names _ _ (by decide)).1 (by decide +kernel), (C20_names _ _ (by decide)).1 (by decide +kernel), fun h => ?_⟩
  exact absurd ((C20_names _ _ (by decide)).2 h) (by decide +kernel)

/-- **C20.** Setting an empty light from the text of any light yields the same light. -/
theorem C20_light (l : List Bulb) (hl : Ordered l) : setLight [] (printLight l) = (l, true) := by
  rw [setLight_describes (describes_print l)]
  refine Prod.ext (Ordered.ext (ordered_addBulbs List.Pairwise.nil) hl fun b => ?_) rfl
  simp [mem_addBulbs]

example : printLight [⟨.green, .solidOn, .circle⟩, ⟨.red, .flashing, .upperLeft⟩] =
    "green solidOn circle, red flashing upperLeft".toList := by decide +kernel

/-! ### C21 -/

/-- **C21.** Setting a traffic light (`ids = [i]`), or all lights of a regulatory element, from a text
describing the bulbs `bs` makes every one of them show exactly `bs`, whatever it showed before, and leaves
the other conventional lights alone. (Missing: malformed texts, see `C21_violated`.) -/
theorem C21_replaces_partial (m : RoadMap) (i : Id) (ids : List Id) (hi : m.lights i = some ids) {s : Text} {bs : List Bulb}
    (h : Describes s bs) (w : Lights) :
    (convSet m i s w).2 = true ∧
    (∀ j ∈ ids, ∀ b, contains ((convSet m i s w).1.conv j) b = true ↔ b ∈ bs) ∧
    ∀ j, j ∉ ids → (convSet m i s w).1.conv j = w.conv j := by
  have ha := fun f => addAll_describes h ids f
  have key : (convSet m i s w).2 = true ∧ (convSet m i s w).1.conv = (addAll s ids (clearAll ids w.conv)).1 := by
    cases he : w.enabled i <;>
    simp [convSet, andThen, convClear, convAdd, mirror, v2iSet, v2iClear, v2iAdd, hi, ha, he]
  refine ⟨key.1, fun j hj b => ?_, fun j hj => ?_⟩
  · rw [key.2, contains_iff, (ha _).2, clearAll_mem hj]; simp [hj]
  · rw [key.2, addAll_ne hj, clearAll_ne hj]

/-- **C21.** Adding shows the described bulbs in addition, clearing shows none. -/
theorem C21_add_clear (m : RoadMap) (i : Id) (ids : List Id) (hi : m.lights i = some ids) {s : Text} {bs : List Bulb}
    (h : Describes s bs) (w : Lights) :
    ((convAdd m i s w).2 = true ∧ (convClear m i w).2 = true) ∧
    (∀ j ∈ ids, (∀ b, contains ((convAdd m i s w).1.conv j) b = true ↔ b ∈ bs ∨ contains (w.conv j) b = true) ∧
      ∀ b, contains ((convClear m i w).1.conv j) b = false) ∧
    ∀ j, j ∉ ids → (convAdd m i s w).1.conv j = w.conv j ∧ (convClear m i w).1.conv j = w.conv j := by
  have ha := fun f => addAll_describes h ids f
  have key : ((convAdd m i s w).2 = true ∧ (convAdd m i s w).1.conv = (addAll s ids w.conv).1) ∧
      (convClear m i w).2 = true ∧ (convClear m i w).1.conv = clearAll ids w.conv := by
    cases he : w.enabled i <;>
    simp [convClear, convAdd, mirror, v2iClear, v2iAdd, hi, ha, he]
  refine ⟨⟨key.1.1, key.2.1⟩, fun j hj => ⟨fun b => ?_, fun b => ?_⟩, fun j hj => ⟨?_, ?_⟩⟩
  · rw [key.1.2, contains_iff, contains_iff, (ha _).2]; simp [hj]
  · rw [key.2.2, clearAll_mem hj]; rfl
  · rw [key.1.2, addAll_ne hj]
  · rw [key.2.2, clearAll_ne hj]

/-- **C21** for the V2I lights: setting, adding and clearing them, which does not touch the conventional
lights. -/
theorem C21_v2i (m : RoadMap) (i : Id) (ids : List Id) (hi : m.lights i = some ids) {s : Text} {bs : List Bulb}
    (h : Describes s bs) (w : Lights) :
    ((v2iSet m i s w).2 = true ∧ (v2iAdd m i s w).2 = true ∧ (v2iClear m i w).2 = true) ∧
    ((v2iSet m i s w).1.conv = w.conv ∧ (v2iAdd m i s w).1.conv = w.conv ∧ (v2iClear m i w).1.conv = w.conv) ∧
    (∀ j ∈ ids, ∀ b, (contains ((v2iSet m i s w).1.v2i j) b = true ↔ b ∈ bs) ∧
      (contains ((v2iAdd m i s w).1.v2i j) b = true ↔ b ∈ bs ∨ contains (w.v2i j) b = true) ∧
      contains ((v2iClear m i w).1.v2i j) b = false) ∧
    ∀ j, j ∉ ids → (v2iSet m i s w).1.v2i j = w.v2i j ∧ (v2iAdd m i s w).1.v2i j = w.v2i j ∧
      (v2iClear m i w).1.v2i j = w.v2i j := by
  have ha := fun f => addAll_describes h ids f
  have e1 : v2iClear m i w = ({ w with v2i := clearAll ids w.v2i }, true) := by simp [v2iClear, hi]
  have e2 : ∀ w : Lights, v2iAdd m i s w = ({ w with v2i := (addAll s ids w.v2i).1 }, true) := by
    intro w; simp [v2iAdd, hi, ha]
  have e3 : v2iSet m i s w = ({ w with v2i := (addAll s ids (clearAll ids w.v2i)).1 }, true) := by
    simp [v2iSet, andThen, e1, e2]
  rw [e1, e2, e3]
  refine ⟨⟨rfl, rfl, rfl⟩, ⟨rfl, rfl, rfl⟩, fun j hj b => ⟨?_, ?_, ?_⟩, fun j hj => ⟨?_, ?_, ?_⟩⟩
  · rw [contains_iff, (ha _).2, clearAll_mem hj]; simp [hj]
  · rw [contains_iff, contains_iff, (ha _).2]; simp [hj]
  · dsimp only; rw [clearAll_mem hj]; rfl
  · dsimp only; rw [addAll_ne hj, clearAll_ne hj]
  · exact addAll_ne hj _
  · exact clearAll_ne hj _

/-- **C21** for detected lights: adding shows the described bulbs in addition to what was detected so far,
clearing makes the light undetected; other lights stay as they are. -/
theorem C21_detected (m : RoadMap) (i : Id) (ids : List Id) (hi : m.lights i = some ids) {s : Text} {bs : List Bulb}
    (h : Describes s bs) (f : Id → Option (List Bulb)) :
    (detectedAdd m i s f).2 = true ∧
    (∃ l, (detectedAdd m i s f).1 i = some l ∧
      ∀ b, contains l b = true ↔ b ∈ bs ∨ ∃ l', f i = some l' ∧ contains l' b = true) ∧
    detectedClear i f i = none ∧
    ∀ j, j ≠ i → (detectedAdd m i s f).1 j = f j ∧ detectedClear i f j = f j := by
  have e : detectedAdd m i s f = (upd f i (some (addBulbs bs ((f i).getD []))), true) := by
    simp [detectedAdd, hi, setLight_describes h]
  rw [e]
  refine ⟨rfl, ⟨addBulbs bs ((f i).getD []), by simp [upd], fun b => ?_⟩, by simp [detectedClear, upd], fun j hj => by
    simp [detectedClear, upd, hj]⟩
  rw [contains_iff, mem_addBulbs]
  cases hf : f i with
  | none => simp
  | some l => simp [contains_iff]

/-- **C21.** Every text that is accepted is a description, so the theorem above covers all
successful calls: any other text makes the call fail. -/
theorem C21_rejects (m : RoadMap) (i : Id) (hi : m.lights i = some [i]) {s : Text}
    (h : ¬ ∃ bs, Describes s bs) (w : Lights) : (convSet m i s w).2 = false := by
  have hs : (setLight [] s).2 = false := by
    cases hr : (setLight [] s).2
    · rfl
    · exact absurd (describes_of_ok hr) h
  cases he : w.enabled i <;>
    simp [convSet, andThen, convClear, convAdd, mirror, v2iClear, hi, clearAll, addAll, hs, he, upd]

/-- **C21, second half, is false of the code**: a malformed text does not leave the light unchanged;
here a light showing red is left showing green although the call failed. -/
theorem C21_violated : ∃ (m : RoadMap) (i : Id) (s : Text) (w : Lights), m.lights i = some [i] ∧
    (convSet m i s w).2 = false ∧ w.conv i = [⟨.red, .solidOn, .circle⟩] ∧
    (convSet m i s w).1.conv i = [⟨.green, .solidOn, .circle⟩] :=
  ⟨⟨fun i => some [i], fun _ => false⟩, 0, "green solidOn circle, purple".toList,
    { Lights.initial with conv := fun _ => [⟨.red, .solidOn, .circle⟩] }, by decide +kernel⟩

example : Describes "green, red flashing left,".toList [⟨.green, .solidOn, .circle⟩, ⟨.red, .flashing, .left⟩] := by
  have p1 : Piece "green".toList ⟨.green, .solidOn, .circle⟩ :=
    ⟨⟨'g', "reen".toList, by decide, by decide, by decide⟩, by decide,
      (C20_names _ _ (by decide)).1 (by decide +kernel)⟩
  have p2 : Piece "red flashing left".toList ⟨.red, .flashing, .left⟩ :=
    ⟨⟨'r', "ed flashing left".toList, by decide, by decide, by decide⟩, by decide,
      (C20_names _ _ (by decide)).1 (by decide +kernel)⟩
  exact .cons (ws := [' ']) (t := "red flashing left,".toList) p1 (by decide) (by decide) (by decide)
    (.cons (ws := []) (t := []) p2 (by decide) (by decide) (by decide) .nil)

/-! ### C22 -/

/-- **C22.** Setting or clearing a conventional light with the V2I feature enabled (by its way id)
makes the V2I light show the same bulbs, whatever it showed before. -/
theorem C22_set_clear_partial (m : RoadMap) (i : Id) (hi : m.lights i = some [i]) (w : Lights)
    (he : w.enabled i = true) :
    (∀ s, (convSet m i s w).2 = true → (convSet m i s w).1.v2i i = (convSet m i s w).1.conv i) ∧
    ((convClear m i w).1.v2i i = (convClear m i w).1.conv i) := by
  refine ⟨fun s hok => ?_, ?_⟩
  · by_cases hd : (setLight [] s).2 = true
    · simp [convSet, andThen, convClear, convAdd, mirror, v2iSet, v2iClear, v2iAdd, hi, clearAll, addAll, hd, he, upd]
    · exfalso
      rw [C21_rejects m i hi (fun ⟨bs, hbs⟩ => hd (by rw [setLight_describes hbs])) w] at hok
      cases hok
  · simp [convClear, mirror, v2iClear, hi, clearAll, he, upd]

/-- **C22.** Adding bulbs to a conventional light with the V2I feature enabled adds the same bulbs to
the V2I light. -/
theorem C22_add_partial (m : RoadMap) (i : Id) (hi : m.lights i = some [i]) (w : Lights)
    (he : w.enabled i = true) (s : Text) (hok : (convAdd m i s w).2 = true) :
    ∃ bs : List Bulb, (∀ b, contains ((convAdd m i s w).1.conv i) b = true ↔ b ∈ bs ∨ contains (w.conv i) b = true) ∧
      ∀ b, contains ((convAdd m i s w).1.v2i i) b = true ↔ b ∈ bs ∨ contains (w.v2i i) b = true := by
  have hd : (setLight (w.conv i) s).2 = true := by
    cases hr : (setLight (w.conv i) s).2
    · rw [show (convAdd m i s w).2 = false by simp [convAdd, hi, addAll, hr]] at hok; cases hok
    · rfl
  obtain ⟨bs, hbs⟩ := describes_of_ok hd
  have hs := fun l => setLight_describes hbs l
  refine ⟨bs, fun b => ?_, fun b => ?_⟩ <;> rw [contains_iff, contains_iff]
  · simp [convAdd, mirror, v2iAdd, hi, addAll, hs, he, upd, mem_addBulbs]
  · simp [convAdd, mirror, v2iAdd, hi, addAll, hs, he, upd, mem_addBulbs]

/-- **C22.** Without the feature, operations on conventional lights leave the V2I lights alone. -/
theorem C22_only_enabled (m : RoadMap) (i : Id) (w : Lights) (he : w.enabled i = false) (s : Text) :
    (convSet m i s w).1.v2i = w.v2i ∧ (convAdd m i s w).1.v2i = w.v2i ∧ (convClear m i w).1.v2i = w.v2i := by
  cases hi : m.lights i with
  | none => simp [convSet, andThen, convClear, convAdd, hi]
  | some ids =>
    refine ⟨?_, ?_, ?_⟩
    · cases hr : (addAll s ids (clearAll ids w.conv)).2 <;>
        simp [convSet, andThen, convClear, convAdd, mirror, hi, he, hr]
    · simp only [convAdd, mirror, hi, he, Bool.false_eq_true, if_false]
      split <;> rfl
    · simp [convClear, mirror, hi, he]

theorem foldl_upd {α : Type} (ids : List Id) (v : α) (f : Id → α) (j : Id) :
    ids.foldl (fun f j => upd f j v) f j = if j ∈ ids then v else f j := by
  induction ids generalizing f with
  | nil => simp
  | cons x ids ih =>
    rw [List.foldl_cons, ih]
    by_cases h1 : j ∈ ids
    · simp [h1]
    · by_cases h2 : j = x <;> simp [h1, h2, upd]

/-- **C22.** Enabling or disabling the feature for a regulatory element does it for all its lights, otherwise for
the light named; other lights keep theirs, and no light changes what it shows. -/
theorem C22_feature (m : RoadMap) (i : Id) (ids : List Id) (hi : m.lights i = some ids) (on : Bool) (w : Lights) :
    (m.isRegulatory i = true → ∀ j, (setFeature m i on w).enabled j = if j ∈ ids then on else w.enabled j) ∧
    (m.isRegulatory i = false → ∀ j, (setFeature m i on w).enabled j = if j = i then on else w.enabled j) ∧
    (setFeature m i on w).conv = w.conv ∧ (setFeature m i on w).v2i = w.v2i := by
  refine ⟨fun h j => ?_, fun h j => ?_, ?_, ?_⟩
  · simp [setFeature, hi, h, foldl_upd]
  · simp [setFeature, hi, h, upd]
  · simp only [setFeature, hi]; split <;> rfl
  · simp only [setFeature, hi]; split <;> rfl

theorem tame_step (m : RoadMap) (i : Id) (hi : m.lights i = some [i]) {o : Op} (ho : Tame m i o)
    {w : Lights} (h : Mirrored i w) (hok : (o.apply m w).2 = true) : Mirrored i (o.apply m w).1 := by
  cases o with
  | convSet j s =>
    rcases ho with rfl | hj
    · refine ⟨?_, (C22_set_clear_partial m j hi w h.1).1 s hok⟩
      by_cases hd : (setLight [] s).2 = true
      · simp [Op.apply, convSet, andThen, convClear, convAdd, mirror, v2iSet, v2iClear, v2iAdd, hi, clearAll, addAll, hd, h.1, upd]
      · simp [Op.apply, convSet, andThen, convClear, convAdd, mirror, v2iClear, hi, clearAll, addAll, hd, h.1, upd]
    · exact h.frame (frame_convSet hj s)
  | convAdd j s =>
    rcases ho with rfl | hj
    · have hd : (setLight (w.conv j) s).2 = true := by
        cases hr : (setLight (w.conv j) s).2
        · rw [show (Op.apply m (.convAdd j s) w).2 = false by simp [Op.apply, convAdd, hi, addAll, hr]] at hok
          cases hok
        · rfl
      constructor
      · simp [Op.apply, convAdd, mirror, v2iAdd, hi, addAll, hd, h.1, h.2]
      · simp [Op.apply, convAdd, mirror, v2iAdd, hi, addAll, hd, h.1, h.2, upd]
    · exact h.frame (frame_convAdd hj s)
  | convClear j =>
    rcases ho with rfl | hj
    · refine ⟨?_, (C22_set_clear_partial m j hi w h.1).2⟩
      simp [Op.apply, convClear, mirror, v2iClear, hi, clearAll, h.1]
    · exact h.frame (frame_convClear hj)
  | v2iSet j s => exact h.frame (frame_v2iSet ho s)
  | v2iAdd j s => exact h.frame (frame_v2iAdd ho s)
  | v2iClear j => exact h.frame (frame_v2iClear ho)
  | feature j on =>
    refine ⟨?_, ?_⟩
    · have hfold : ∀ (ids : List Id) (f : Id → Bool), f i = true → (on = true ∨ i ∉ ids) →
          ids.foldl (fun f j => upd f j on) f i = true := by
        intro ids
        induction ids with
        | nil => intro f hf _; exact hf
        | cons k ids ih =>
          intro f hf hon
          refine ih _ ?_ ?_
          · rcases hon with hon | hon
            · simp only [upd]; split
              · exact hon
              · exact hf
            · have : i ≠ k := fun hc => hon (by simp [hc])
              simp [upd, this, hf]
          · rcases hon with hon | hon
            · exact Or.inl hon
            · exact Or.inr fun hc => hon (List.mem_cons_of_mem _ hc)
      simp only [Op.apply, setFeature]
      split
      · exact h.1
      · rename_i ids hids
        split
        · refine hfold ids _ h.1 ?_
          rcases ho with ho | ho
          · exact Or.inl ho
          · exact Or.inr (ho ids hids).1
        · rcases ho with ho | ho
          · simp only [upd]; split
            · exact ho
            · exact h.1
          · simp [upd, (ho ids hids).2, h.1]
    · simp only [Op.apply, setFeature]
      split
      · exact h.2
      · split <;> exact h.2

/-- **C22.** Over any history of successful operations that address the light by its way id, the V2I
side of a light with the feature enabled stays equal to the conventional side. -/
theorem C22_history_partial (m : RoadMap) (i : Id) (hi : m.lights i = some [i]) (ops : List Op)
    (ho : ∀ o ∈ ops, Tame m i o) {w w' : Lights} (h : Mirrored i w)
    (hr : applyAll m ops w = some w') : Mirrored i w' := by
  induction ops generalizing w with
  | nil => simp only [applyAll, Option.some.injEq] at hr; subst hr; exact h
  | cons o ops ih =>
    simp only [applyAll] at hr
    split at hr
    · rename_i hok
      exact ih (fun o' ho' => ho o' (List.mem_cons_of_mem _ ho')) (tame_step m i hi (ho o List.mem_cons_self) h hok) hr
    · cases hr

/-- Lights 1 and 2 belong to regulatory element 10. -/
def exMap : RoadMap := ⟨fun i => if i = 10 then some [1, 2] else if i = 1 ∨ i = 2 then some [i] else none,
  fun i => i = 10⟩

example : exMap.lights 1 = some [1] ∧ Mirrored 1 (setFeature exMap 10 true Lights.initial) ∧
    (∀ o ∈ [Op.convSet 1 "red".toList, .convSet 2 "green".toList, .convAdd 1 "green up".toList, .feature 2 false],
      Tame exMap 1 o) ∧
    (applyAll exMap [Op.convSet 1 "red".toList, .convSet 2 "green".toList, .convAdd 1 "green up".toList, .feature 2 false]
      (setFeature exMap 10 true Lights.initial)).isSome := by
  refine ⟨by decide, ⟨by decide, rfl⟩, ?_, by decide +kernel⟩
  intro o ho
  simp only [List.mem_cons, List.not_mem_nil, or_false] at ho
  rcases ho with rfl | rfl | rfl | rfl
  · exact Or.inl rfl
  · right; intro ids h; simp [exMap] at h; subst h; decide
  · exact Or.inl rfl
  · right; intro ids h; simp [exMap] at h; subst h; decide

/-- **C22 is false of the code for regulatory element ids**: the feature is enabled for regulatory
element 10 and a state is set for it, the conventional lights of the element show it, the V2I lights
show nothing. -/
theorem C22_violated : ∃ (m : RoadMap) (r : Id) (s : Text) (w : Lights),
    w = setFeature m r true Lights.initial ∧ (convSet m r s w).2 = true ∧
    ∃ i, m.lights i = some [i] ∧ w.enabled i = true ∧
      (convSet m r s w).1.conv i = [⟨.red, .solidOn, .circle⟩] ∧ (convSet m r s w).1.v2i i = [] :=
  ⟨exMap, 10, "red".toList, _, rfl, by decide +kernel, 1, by decide, by decide, by decide +kernel,
    by decide +kernel⟩

end Verif.Light
