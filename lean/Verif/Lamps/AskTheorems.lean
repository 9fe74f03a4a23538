import Verif.Lamps.Lemmas
import Verif.Light.Theorems
import Mathlib.Algebra.Field.Rat
import Mathlib.Data.List.Induction
/-
C239 and C240: what conditions say of traffic lights, and what is published of lights that were asked for.
-/
namespace Verif.Lamps
open Verif.Light

variable {K : Type} [One K]

theorem after_fine (m : RoadMap) (h : List (Op K)) :
    Fine (after m h) ∧ ∀ j, j ∈ (after m h).keys ↔ ∃ o ∈ h, j ∈ o.lights m := by
  induction h using List.reverseRecOn with
  | nil => exact ⟨fine_empty, fun j => by simp [after, Reg.empty]⟩
  | append_singleton h o ih =>
    obtain ⟨a, b⟩ := apply_fine m ih.1 o
    rw [after_concat]
    refine ⟨a, fun j => ?_⟩
    rw [b, ih.2]
    constructor
    · rintro (h' | ⟨o', h1, h2⟩)
      · exact ⟨o, by simp, h'⟩
      · exact ⟨o', by simp [h1], h2⟩
    · rintro ⟨o', h1, h2⟩
      rcases List.mem_append.1 h1 with h1 | h1
      · exact Or.inr ⟨o', h1, h2⟩
      · obtain rfl := List.mem_singleton.1 h1; exact Or.inl h2

omit [One K] in
theorem allShow_some {s : Text} {b : Bulb} (hb : parseBulb s = some b) (ls : List (Lamp K)) :
    allShow s ls = some (ls.all fun l => contains l.bulbs b) := by
  induction ls with
  | nil => rfl
  | cons l ls ih =>
    simp only [allShow, hb, List.all_cons]
    cases contains l.bulbs b
    · rfl
    · simpa using ih

theorem condition_eq (m : RoadMap) {r : Reg K} (hr : Fine r) {i : Id} {ids : List Id} (hi : m.lights i = some ids) (s : Text) :
    (condition m r i s).2 = (match compareLamps s (ids.map r.lamp) with | some b => .says b | none => .error) ∧
    (condition m r i s).1.lamp = r.lamp ∧
    ∀ j, j ∈ (condition m r i s).1.keys ↔ j ∈ ids ∨ j ∈ r.keys := by
  obtain ⟨a, b, c⟩ := getLights_spec hr ids
  have e : condition m r i s = apply m (getLights r ids) (.compare i s) := by
    simp [condition, apply, Op.id, hi, applyIds]
  rw [e]
  have h2 : getLights (getLights r ids) ids = getLights r ids := getLights_same fun i hi => (c i).2 (Or.inl hi)
  simp only [apply, Op.id, hi, applyIds, h2, b]
  refine ⟨?_, trivial, c⟩
  first | rfl | trivial

/-! ### C239 -/

/-- **C239.** What a condition about a traffic light says, after any operations.  With the text "none" or none at
all: whether every light of the id shows nothing.  With a text that names a bulb: whether every one of them
shows it.  With any other text it is an error (if there is a light), as it is with an id that is no light. -/
theorem C239_condition (m : RoadMap) (h : List (Op K)) (i : Id) (s : Text) :
    (∀ ids, m.lights i = some ids →
      ((s = [] ∨ s = "none".toList) → ∃ v, (condition m (after m h) i s).2 = .says v ∧
        (v = true ↔ ∀ w ∈ ids, ((after m h).lamp w).bulbs = [])) ∧
      (s ≠ [] → s ≠ "none".toList → (∀ x ∈ s.head?, ¬ isSpace x) →
        (∀ b, Names s b → ∃ v, (condition m (after m h) i s).2 = .says v ∧
          (v = true ↔ ∀ w ∈ ids, b ∈ ((after m h).lamp w).bulbs)) ∧
        ((∀ b, ¬ Names s b) → ids ≠ [] → (condition m (after m h) i s).2 = .error))) ∧
    (m.lights i = none → (condition m (after m h) i s).2 = .error) := by
  refine ⟨fun ids hi => ?_, fun hi => by simp [condition, apply, Op.id, hi]⟩
  rw [(condition_eq m (after_fine m h).1 hi s).1]
  refine ⟨fun hs => ⟨(ids.map (after m h).lamp).all fun l => l.bulbs.isEmpty, by simp only [compareLamps, if_pos hs], ?_⟩,
    fun h1 h2 hf => ⟨fun b hb => ⟨(ids.map (after m h).lamp).all fun l => contains l.bulbs b, by
    simp only [compareLamps, if_neg (show ¬ (s = [] ∨ s = "none".toList) by tauto), allShow_some ((C20_names s b hf).2 hb)], ?_⟩,
    fun hb hne => ?_⟩⟩
  · simp
  · simp [contains_iff]
  · have hp : parseBulb s = none := by
      cases e : parseBulb s with
      | none => rfl
      | some b => exact absurd ((C20_names s b hf).1 e) (hb b)
    obtain ⟨w, ws, rfl⟩ := List.exists_cons_of_ne_nil hne
    simp only [compareLamps, if_neg (show ¬ (s = [] ∨ s = "none".toList) by tauto), List.map_cons, allShow, hp]

/-- **C239, partial.** A light (or all those of a regulatory element) that has been set to one bulb, or to which it has
been added, meets the condition with the same text; one that has been cleared meets the condition with "none".
(Missing: the text "none" itself, and texts of several bulbs, see below.) -/
theorem C239_set_partial (m : RoadMap) (h : List (Op K)) (i : Id) (ids : List Id) (hi : m.lights i = some ids)
    (s : Text) (b : Bulb) (hs : Piece s b) (hn : s ≠ "none".toList) :
    (condition m (after m (h ++ [.set i s])) i s).2 = .says true ∧
    (condition m (after m (h ++ [.add i s])) i s).2 = .says true ∧
    (condition m (after m (h ++ [.clear i])) i "none".toList).2 = .says true := by
  have key : ∀ r : Reg K, Fine r → (∀ w ∈ ids, b ∈ (r.lamp w).bulbs) → (condition m r i s).2 = .says true := by
    intro r hr hb
    rw [(condition_eq m hr hi s).1]
    simp only [compareLamps, if_neg (show ¬ (s = [] ∨ s = "none".toList) from fun hh => hh.elim (piece_ne_nil hs) hn),
      allShow_some (parse_piece hs)]
    congr 1
    simpa [contains_iff] using hb
  have hd := fun f => addAll_describes (.last hs) ids f
  refine ⟨key _ (after_fine m _).1 fun w hw => ?_, key _ (after_fine m _).1 fun w hw => ?_, ?_⟩
  · rw [after_concat]
    simp only [apply, Op.id, hi, applyIds]
    rw [(addIds_spec (clearIds_spec (after_fine m h).1 ids).1 ids s).2.2.2.1, (hd _).2]
    simp [hw]
  · rw [after_concat]
    simp only [apply, Op.id, hi, applyIds]
    rw [(addIds_spec (after_fine m h).1 ids s).2.2.2.1, (hd _).2]
    simp [hw]
  · rw [(condition_eq m (after_fine m _).1 hi _).1, after_concat]
    simp only [apply, Op.id, hi, applyIds, compareLamps, or_true, if_true]
    congr 1
    simp only [List.all_map, List.all_eq_true]
    intro w hw
    simp [(clearIds_spec (after_fine m h).1 ids).2.2, hw]

/-- One light, numbered 7, and a regulatory element 1 of lights 7 and 8. -/
def town : RoadMap := ⟨fun i => if i = 7 then some [7] else if i = 1 then some [7, 8] else none, fun i => i = 1⟩

example : Piece "red flashing".toList ⟨.red, .flashing, .circle⟩ ∧ "red flashing".toList ≠ "none".toList ∧
    town.lights 1 = some [7, 8] ∧
    (condition town (after (K := ℚ) town [.set 1 "red flashing".toList]) 7 "red flashing".toList).2 = .says true ∧
    (condition town (after (K := ℚ) town [.set 1 "red flashing".toList]) 7 "red".toList).2 = .says false ∧
    (condition town (after (K := ℚ) town [.set 7 "red".toList]) 1 "red".toList).2 = .says false ∧
    (condition town (after (K := ℚ) town []) 1 "none".toList).2 = .says true ∧
    (condition town (after (K := ℚ) town []) 2 "none".toList).2 = .error ∧
    (condition town (after (K := ℚ) town []) 7 "purple".toList).2 = .error := by
  refine ⟨⟨⟨'r', "ed flashing".toList, by decide, by decide, by decide⟩, by decide,
      (C20_names _ _ (by decide)).1 (by decide +kernel)⟩, ?_⟩
  decide +kernel

/-- **C239.** Lights can be set to a text, or bulbs added to them, exactly if the text describes bulbs (or there is no light to be set); any
other text is an error.  An id that is no light is an error for every operation. -/
theorem C239_refused (m : RoadMap) (h : List (Op K)) (i : Id) (s : Text) :
    (∀ ids, m.lights i = some ids →
      ((apply m (after m h) (.set i s)).2 = .done ↔ ids = [] ∨ ∃ bs, Describes s bs) ∧
      ((apply m (after m h) (.set i s)).2 = .error ↔ ids ≠ [] ∧ ¬ ∃ bs, Describes s bs) ∧
      ((apply m (after m h) (.add i s)).2 = .done ↔ ids = [] ∨ ∃ bs, Describes s bs) ∧
      ((apply m (after m h) (.add i s)).2 = .error ↔ ids ≠ [] ∧ ¬ ∃ bs, Describes s bs)) ∧
    ∀ o : Op K, m.lights o.id = none → apply m (after m h) o = (after m h, .error) := by
  have key : ∀ (ids : List Id) (r : Reg K), (setEach s ids r).2 = true ↔ ids = [] ∨ ∃ bs, Describes s bs := by
    intro ids
    induction ids with
    | nil => intro r; simp [setEach]
    | cons w ids ih =>
      intro r
      by_cases hd : ∃ bs, Describes s bs
      · obtain ⟨bs, hb⟩ := hd
        have e : (setLight (r.lamp w).bulbs s).2 = true := by rw [setLight_describes hb]
        simp only [setEach, if_pos e]
        rw [ih]
        exact ⟨fun _ => .inr ⟨bs, hb⟩, fun _ => .inr ⟨bs, hb⟩⟩
      · have e : ¬ (setLight (r.lamp w).bulbs s).2 = true := fun e => hd (describes_of_ok e)
        simp only [setEach, if_neg e]
        simp [hd]
  refine ⟨fun ids hi => ?_, fun o ho => ?_⟩
  · have both : ∀ r : Reg K, ((if (setEach s ids r).2 = true then Res.done else Res.error) = .done ↔ ids = [] ∨ ∃ bs, Describes s bs) ∧
        ((if (setEach s ids r).2 = true then Res.done else Res.error) = .error ↔ ids ≠ [] ∧ ¬ ∃ bs, Describes s bs) := by
      intro r
      rw [← key ids r, ← not_or, ← key ids r]
      cases (setEach s ids r).2 <;> simp
    simp only [apply, Op.id, hi, applyIds, addIds]
    exact ⟨(both _).1, (both _).2, (both _).1, (both _).2⟩
  · cases o <;> simp_all [apply, Op.id]

example : (∃ bs, Describes "green, red flashing".toList bs) ∧ ¬ ∃ bs, Describes "purple".toList bs := by
  refine ⟨describes_of_ok (l := []) (by decide +kernel), ?_⟩
  rintro ⟨bs, hb⟩
  have := setLight_describes hb []
  rw [show setLight [] "purple".toList = ([], false) by decide +kernel] at this
  exact absurd (congrArg Prod.snd this) (by simp)

/-- **C239.** The state of lights in words is the texts of the lights, with a semicolon and a blank between them; each of
these texts sets a light to what that light shows. -/
theorem C239_words (m : RoadMap) (h : List (Op K)) (i : Id) (ids : List Id) (hi : m.lights i = some ids) :
    ∃ texts : List Text, (apply m (after m h) (.composed i)).2 = .text ("; ".toList.intercalate texts) ∧
      texts.length = ids.length ∧
      ∀ (k : Nat) w, ids[k]? = some w → ∃ t, texts[k]? = some t ∧ Describes t ((after m h).lamp w).bulbs := by
  refine ⟨ids.map fun w => printLight ((after m h).lamp w).bulbs, ?_, by simp, fun k w hk => ?_⟩
  · simp only [apply, Op.id, hi, applyIds, (getLights_spec (after_fine m h).1 ids).2.1]
    congr 1
    generalize (after m h).lamp = f
    clear hi
    induction ids with
    | nil => rfl
    | cons w ids ih =>
      cases ids with
      | nil => simp [composeLamps, List.intercalate]
      | cons w' ids =>
        have e : composeLamps (List.map f (w :: w' :: ids)) =
            printLight (f w).bulbs ++ ';' :: ' ' :: composeLamps (List.map f (w' :: ids)) := by simp [composeLamps]
        rw [e, ih]
        simp [List.intercalate]
  · exact ⟨printLight ((after m h).lamp w).bulbs, by simp [hk], describes_print _⟩

/-- **C239.** A light makes others stop exactly if it shows a steady round bulb that is red or yellow. -/
theorem C239_stop (m : RoadMap) (h : List (Op K)) (i : Id) (hi : m.lights i = some [i]) :
    ∃ v, (apply m (after m h) (.stop i)).2 = .says v ∧
      (v = true ↔ ∃ b ∈ ((after m h).lamp i).bulbs, (b.color = .red ∨ b.color = .yellow) ∧ b.status = .solidOn ∧ b.shape = .circle) := by
  refine ⟨needsStop ((after m h).lamp i), ?_, ?_⟩
  · simp only [apply, hi, if_true, applyIds, getLight_lamp (after_fine m h).1]
  · simp only [needsStop, Bool.or_eq_true, contains_iff]
    constructor
    · rintro (h | h)
      · exact ⟨_, h, Or.inl rfl, rfl, rfl⟩
      · exact ⟨_, h, Or.inr rfl, rfl, rfl⟩
    · rintro ⟨⟨c, s, p⟩, h, hc, hs, hp⟩
      simp only at hc hs hp
      subst hs hp
      rcases hc with rfl | rfl
      · exact Or.inl h
      · exact Or.inr h

example : (apply town (after (K := ℚ) town [.set 7 "red, green left".toList]) (.composed 1)).2 =
      .text "green solidOn left, red solidOn circle; ".toList ∧
    (apply town (after (K := ℚ) town [.set 7 "red, green left".toList]) (.stop 7)).2 = .says true ∧
    (apply town (after (K := ℚ) town [.set 7 "red flashing".toList]) (.stop 7)).2 = .says false := by
  decide +kernel

/-- **C239 is false of the code** for the text "none": a light that has been set to "none" shows a bulb (green and
off), so the condition that it is "none" does not hold. -/
theorem C239_none_violated : ∃ (m : RoadMap) (i : Id), m.lights i = some [i] ∧
    (apply m (after (K := ℚ) m []) (.set i "none".toList)).2 = .done ∧
    (condition m (after (K := ℚ) m [.set i "none".toList]) i "none".toList).2 = .says false ∧
    ((after (K := ℚ) m [.set i "none".toList]).lamp i).bulbs = [⟨.green, .solidOff, .circle⟩] :=
  ⟨town, 7, by decide +kernel⟩

/-- **C239 is false of the code** for texts of several bulbs: a light may be set to one, but the condition with the
same text is an error. -/
theorem C239_list_violated : ∃ (m : RoadMap) (i : Id) (s : Text), m.lights i = some [i] ∧
    (apply m (after (K := ℚ) m []) (.set i s)).2 = .done ∧
    (condition m (after (K := ℚ) m [.set i s]) i s).2 = .error :=
  ⟨town, 7, "red, green left".toList, by decide +kernel⟩

/-! ### C240 -/

/-- **C240.** What every operation leaves every light showing: set exactly what the text describes, add that and what
there was, clear nothing, a colour that colour as a steady round bulb and what there was; confidences and questions
change no bulb, and no operation changes a light it is not about. -/
theorem C240_bulbs (m : RoadMap) (h : List (Op K)) (i : Id) (ids : List Id) (hi : m.lights i = some ids)
    (s : Text) (bs : List Bulb) (hs : Describes s bs) (c : Color) (w : Id) (b : Bulb) :
    let now := fun h : List (Op K) => ((after m h).lamp w).bulbs
    (b ∈ now (h ++ [.set i s]) ↔ if w ∈ ids then b ∈ bs else b ∈ now h) ∧
    (b ∈ now (h ++ [.add i s]) ↔ (w ∈ ids ∧ b ∈ bs) ∨ b ∈ now h) ∧
    (b ∈ now (h ++ [.clear i]) ↔ w ∉ ids ∧ b ∈ now h) ∧
    (b ∈ now (h ++ [.color i c]) ↔ (w ∈ ids ∧ b = ⟨c, .solidOn, .circle⟩) ∨ b ∈ now h) ∧
    (∀ x, now (h ++ [.confidence i x]) = now h) ∧
    ∀ o : Op K, o.Asks → now (h ++ [o]) = now h := by
  have hr := (after_fine m h).1
  have hd := fun f => addAll_describes hs ids f
  obtain ⟨g1, g2, g3⟩ := getLights_spec hr ids
  have hin : ∀ i ∈ ids, i ∈ (getLights (after m h) ids).keys := fun i hi => (g3 i).2 (Or.inl hi)
  have hc := clearIds_spec hr ids
  dsimp only
  refine ⟨?_, ?_, ?_, ?_, fun x => ?_, fun o ho => ?_⟩
  · rw [after_concat]
    simp only [apply, Op.id, hi, applyIds]
    rw [(addIds_spec hc.1 ids s).2.2.2.1, (hd _).2]
    simp only [hc.2.2]
    by_cases hw : w ∈ ids <;> simp [hw]
  · rw [after_concat]
    simp only [apply, Op.id, hi, applyIds]
    rw [(addIds_spec hr ids s).2.2.2.1, (hd _).2]
  · rw [after_concat]
    simp only [apply, Op.id, hi, applyIds]
    rw [hc.2.2]
    by_cases hw : w ∈ ids <;> simp [hw]
  · rw [after_concat]
    simp only [apply, Op.id, hi, applyIds]
    rw [(changes_spec g1 hin (fun l => { l with bulbs := emplace ⟨c, .solidOn, .circle⟩ l.bulbs })
      (fun l => by simp [emplace_emplace])).2.2, g2]
    by_cases hw : w ∈ ids
    · simp [hw, mem_emplace]
    · simp [hw]
  · rw [after_concat]
    simp only [apply, Op.id, hi, applyIds]
    rw [(changes_spec g1 hin (fun l => { l with confidence := x }) (fun l => rfl)).2.2, g2]
    by_cases hw : w ∈ ids <;> simp [hw]
  · rw [after_concat]
    rcases apply_eq m (after m h) o with ⟨ids', e, -, -⟩ | ⟨e, -⟩
    · rw [e]
      cases o with
      | compare j t => simp only [applyIds]; rw [(getLights_spec hr ids').2.1]
      | composed j => simp only [applyIds]; rw [(getLights_spec hr ids').2.1]
      | stop j => simp only [applyIds]; rw [getLight_lamp hr]
      | _ => exact ho.elim
    · rw [e]

/-- **C240.** Confidences are one until they are set, and are what they were last set to. -/
theorem C240_confidence (m : RoadMap) (h : List (Op K)) (w : Id) :
    ((after m ([] : List (Op K))).lamp w).confidence = 1 ∧
    (∀ i ids x, m.lights i = some ids → ((after m (h ++ [.confidence i x])).lamp w).confidence =
      if w ∈ ids then x else ((after m h).lamp w).confidence) ∧
    ∀ o : Op K, (∀ i x, o ≠ .confidence i x) → ((after m (h ++ [o])).lamp w).confidence = ((after m h).lamp w).confidence := by
  have hr := (after_fine m h).1
  refine ⟨rfl, fun i ids x hi => ?_, fun o ho => ?_⟩
  · obtain ⟨g1, g2, g3⟩ := getLights_spec hr ids
    have hin : ∀ i ∈ ids, i ∈ (getLights (after m h) ids).keys := fun i hi => (g3 i).2 (Or.inl hi)
    rw [after_concat]
    simp only [apply, Op.id, hi, applyIds]
    rw [(changes_spec g1 hin (fun l => { l with confidence := x }) (fun l => rfl)).2.2, g2]
    by_cases hw : w ∈ ids <;> simp [hw]
  · rw [after_concat]
    rcases apply_eq m (after m h) o with ⟨ids, e, -, -⟩ | ⟨e, -⟩
    · rw [e]
      obtain ⟨g1, g2, g3⟩ := getLights_spec hr ids
      have hin : ∀ i ∈ ids, i ∈ (getLights (after m h) ids).keys := fun i hi => (g3 i).2 (Or.inl hi)
      have hc := clearIds_spec hr ids
      cases o with
      | set j t =>
        simp only [applyIds]
        rw [(addIds_spec hc.1 ids t).2.2.2.2, hc.2.2]
        split <;> rfl
      | add j t => simp only [applyIds]; rw [(addIds_spec hr ids t).2.2.2.2]
      | clear j => simp only [applyIds]; rw [hc.2.2]; split <;> rfl
      | color j col =>
        simp only [applyIds]
        rw [(changes_spec g1 hin (fun l => { l with bulbs := emplace ⟨col, .solidOn, .circle⟩ l.bulbs })
          (fun l => by simp [emplace_emplace])).2.2, g2]
        split <;> rfl
      | confidence j x => exact absurd rfl (ho j x)
      | compare j t => simp only [applyIds]; rw [g2]
      | composed j => simp only [applyIds]; rw [g2]
      | stop j => simp only [applyIds]; rw [getLight_lamp hr]
    · rw [e]

omit [One K] in
theorem filter_request (rel : Id → List Id) (r : Reg K) (w : Id) (hn : r.keys.Nodup) :
    (request rel r).filter (fun x => x.id = w) = if w ∈ r.keys then [signal rel w (r.lamp w)] else [] := by
  unfold request
  generalize r.keys = ks at *
  induction ks with
  | nil => rfl
  | cons k ks ih =>
    have hk := List.nodup_cons.1 hn
    have ih := ih hk.2
    simp only [List.map_cons, List.filter_cons, List.mem_cons]
    by_cases h : k = w
    · subst h
      simp only [signal] at ih ⊢
      simp [ih, hk.1]
    · have h' : ¬ w = k := fun e => h e.symm
      simp only [signal] at ih ⊢
      simp [h, h', ih]

/-- **C240.** The message of traffic lights has one signal for every light that some operation so far was about, and
none for others: its relations, all its bulbs, each of them with the confidence of the light. -/
theorem C240_message (m : RoadMap) (rel : Id → List Id) (h : List (Op K)) (w : Id) :
    ((∃ o ∈ h, w ∈ o.lights m) → (request rel (after m h)).filter (fun x => x.id = w) =
      [⟨w, rel w, ((after m h).lamp w).bulbs.map fun b => (b, ((after m h).lamp w).confidence)⟩]) ∧
    ((¬ ∃ o ∈ h, w ∈ o.lights m) → (request rel (after m h)).filter (fun x => x.id = w) = []) := by
  obtain ⟨hf, hk⟩ := after_fine m h
  rw [filter_request rel _ w hf.nodup]
  refine ⟨fun hh => ?_, fun hh => ?_⟩
  · rw [if_pos ((hk w).2 hh)]; rfl
  · rw [if_neg fun h' => hh ((hk w).1 h')]

/-- **C240, partial.** Asking about lights that were asked about or changed before leaves the message as it is.
(Missing: lights that were not, see below.) -/
theorem C240_look_partial (m : RoadMap) (rel : Id → List Id) (h : List (Op K)) (o : Op K) (ho : o.Asks)
    (hk : ∀ w ∈ o.lights m, ∃ o' ∈ h, w ∈ o'.lights m) :
    request rel (after m (h ++ [o])) = request rel (after m h) := by
  obtain ⟨hf, hkeys⟩ := after_fine m h
  have : (apply m (after m h) o).1 = after m h := by
    rcases apply_eq m (after m h) o with ⟨ids, e, hl, hs⟩ | ⟨e, -⟩
    · have hg : getLights (after m h) ids = after m h := getLights_same fun i hi => (hkeys i).2 (hk i (hl ▸ hi))
      rw [e]
      cases o with
      | compare j t => exact hg
      | composed j => exact hg
      | stop j =>
        obtain rfl := hs j rfl
        exact getLight_same ((hkeys j).2 (hk j (by rw [← hl]; simp)))
      | _ => exact ho.elim
    · rw [e]
  rw [after_concat, this]

example : (Op.compare (K := ℚ) 1 "red".toList).Asks ∧
    (∀ w ∈ (Op.compare (K := ℚ) 1 "red".toList).lights town, ∃ o' ∈ [Op.add (K := ℚ) 1 "red, green left".toList, .confidence 7 (1/2)],
      w ∈ o'.lights town) ∧
    (request (fun _ => [1]) (after town [Op.add (K := ℚ) 1 "red, green left".toList, .confidence 7 (1/2)])).map
      (fun x => (x.id, x.relations, x.status)) =
      [(7, [1], [(⟨.green, .solidOn, .left⟩, 1/2), (⟨.red, .solidOn, .circle⟩, 1/2)]),
       (8, [1], [(⟨.green, .solidOn, .left⟩, 1), (⟨.red, .solidOn, .circle⟩, 1)])] := by
  refine ⟨trivial, fun w hw => ⟨.add 1 "red, green left".toList, by simp, hw⟩, by decide +kernel⟩

/-- **C240 is false of the code** in that questions change what is published: a light of which nothing was in the
message is in it, without bulbs, once a condition has asked about it. -/
theorem C240_look_violated : ∃ (m : RoadMap) (h : List (Op ℚ)) (o : Op ℚ), o.Asks ∧
    (request (fun _ => []) (after m h)).map (·.id) = [] ∧
    (request (fun _ => []) (after m (h ++ [o]))).map (fun x => (x.id, x.status.length)) = [(7, 0)] :=
  ⟨town, [], .compare 7 "red".toList, trivial, by decide +kernel⟩

end Verif.Lamps
