import Verif.Lamps.Spec
import Verif.Light.Lemmas
/-
Lemmas for C239 and C240.
-/
namespace Verif.Lamps
open Verif.Light

variable {K : Type} [One K]

/-- A map in which absent lights are as new ones, and no key comes twice. -/
structure Fine (r : Reg K) : Prop where
  nodup : r.keys.Nodup
  absent : ∀ i, i ∉ r.keys → r.lamp i = Lamp.new

theorem fine_empty : Fine (Reg.empty (K := K)) := ⟨List.nodup_nil, fun _ _ => rfl⟩

theorem getLight_keys (r : Reg K) (i j : Id) : j ∈ (getLight r i).keys ↔ j = i ∨ j ∈ r.keys := by
  unfold getLight added addLight
  by_cases h : i ∈ r.keys
  · simp only [h, decide_true, Bool.not_true, Bool.false_eq_true, if_false]
    constructor
    · exact Or.inr
    · rintro (rfl | h')
      · exact h
      · exact h'
  · simp [h, or_comm]

theorem getLight_lamp {r : Reg K} (hr : Fine r) (i : Id) : (getLight r i).lamp = r.lamp := by
  unfold getLight added addLight
  by_cases h : i ∈ r.keys
  · simp [h]
  · simp only [h, decide_false, Bool.not_false, if_true, if_false]
    funext j
    unfold upd
    split
    · rename_i e; subst e; exact (hr.absent _ h).symm
    · rfl

theorem fine_getLight {r : Reg K} (hr : Fine r) (i : Id) : Fine (getLight r i) := by
  refine ⟨?_, fun j hj => ?_⟩
  · unfold getLight added addLight
    by_cases h : i ∈ r.keys
    · simpa [h] using hr.nodup
    · simp only [h, decide_false, Bool.not_false, if_true, if_false]
      rw [List.nodup_append]
      refine ⟨hr.nodup, by simp, ?_⟩
      intro a ha b hb
      simp only [List.mem_singleton] at hb
      subst hb
      rintro rfl
      exact h ha
  · rw [getLight_lamp hr]
    exact hr.absent j fun h => hj ((getLight_keys r i j).2 (Or.inr h))

theorem getLight_same {r : Reg K} {i : Id} (h : i ∈ r.keys) : getLight r i = r := by
  simp [getLight, added, h]

theorem getLights_spec {r : Reg K} (hr : Fine r) (ids : List Id) :
    Fine (getLights r ids) ∧ (getLights r ids).lamp = r.lamp ∧
    (∀ j, j ∈ (getLights r ids).keys ↔ j ∈ ids ∨ j ∈ r.keys) := by
  unfold getLights
  induction ids generalizing r with
  | nil => exact ⟨hr, rfl, fun j => by simp⟩
  | cons i ids ih =>
    obtain ⟨a, b, c⟩ := ih (fine_getLight hr i)
    refine ⟨a, by rw [List.foldl_cons, b, getLight_lamp hr], fun j => ?_⟩
    rw [List.foldl_cons, c, getLight_keys]
    simp only [List.mem_cons]
    tauto

theorem getLights_same {r : Reg K} {ids : List Id} (h : ∀ i ∈ ids, i ∈ r.keys) : getLights r ids = r := by
  unfold getLights
  induction ids with
  | nil => rfl
  | cons i ids ih =>
    rw [List.foldl_cons, getLight_same (h i (by simp))]
    exact ih fun j hj => h j (by simp [hj])

omit [One K] in
theorem change_keys (r : Reg K) (i : Id) (f : Lamp K → Lamp K) : (change r i f).keys = r.keys := rfl

theorem fine_change {r : Reg K} (hr : Fine r) {i : Id} (hi : i ∈ r.keys) (f : Lamp K → Lamp K) : Fine (change r i f) := by
  refine ⟨hr.nodup, fun j hj => ?_⟩
  have : j ≠ i := by rintro rfl; exact hj hi
  simp only [change, upd, this, if_false]
  exact hr.absent j hj

theorem changes_spec {r : Reg K} (hr : Fine r) {ids : List Id} (hi : ∀ i ∈ ids, i ∈ r.keys) (f : Lamp K → Lamp K)
    (hf : ∀ l, f (f l) = f l) :
    Fine (ids.foldl (fun r i => change r i f) r) ∧ (ids.foldl (fun r i => change r i f) r).keys = r.keys ∧
    ∀ j, (ids.foldl (fun r i => change r i f) r).lamp j = if j ∈ ids then f (r.lamp j) else r.lamp j := by
  induction ids generalizing r with
  | nil => exact ⟨hr, rfl, fun j => by simp⟩
  | cons i ids ih =>
    obtain ⟨a, b, c⟩ := ih (fine_change hr (hi i (by simp)) f) (fun j hj => hi j (by simp [hj]))
    refine ⟨a, b, fun j => ?_⟩
    rw [List.foldl_cons, c]
    simp only [change, upd, List.mem_cons]
    by_cases h1 : j = i
    · subst h1
      by_cases h2 : j ∈ ids
      · simp [h2, hf]
      · simp [h2]
    · simp [h1]

/-- What `setEach` does, told by `addAll` on bulbs. -/
theorem setEach_spec {r : Reg K} (hr : Fine r) {ids : List Id} (hi : ∀ i ∈ ids, i ∈ r.keys) (s : Text) :
    Fine (setEach s ids r).1 ∧ (setEach s ids r).1.keys = r.keys ∧
    (setEach s ids r).2 = (addAll s ids fun j => (r.lamp j).bulbs).2 ∧
    (∀ j, ((setEach s ids r).1.lamp j).bulbs = (addAll s ids fun j => (r.lamp j).bulbs).1 j) ∧
    (∀ j, ((setEach s ids r).1.lamp j).confidence = (r.lamp j).confidence) := by
  induction ids generalizing r with
  | nil => exact ⟨hr, rfl, rfl, fun _ => rfl, fun _ => rfl⟩
  | cons i ids ih =>
    have hc := fine_change hr (hi i (by simp)) (fun l => { l with bulbs := (setLight (r.lamp i).bulbs s).1 })
    have hv : (fun j => ((change r i fun l => { l with bulbs := (setLight (r.lamp i).bulbs s).1 }).lamp j).bulbs) =
        upd (fun j => (r.lamp j).bulbs) i (setLight (r.lamp i).bulbs s).1 := by
      funext j; simp only [change, upd]; split <;> rfl
    have hk : ∀ j, ((change r i fun l => { l with bulbs := (setLight (r.lamp i).bulbs s).1 }).lamp j).confidence =
        (r.lamp j).confidence := by
      intro j; simp only [change, upd]; split
      · rename_i e; rw [e]
      · rfl
    obtain ⟨a, b, c, d, e⟩ := ih hc (fun j hj => hi j (by simp [hj]))
    simp only [setEach, addAll]
    rw [hv] at c d
    split
    · exact ⟨a, b, c, d, fun j => by rw [e, hk]⟩
    · exact ⟨hc, rfl, rfl, fun j => congrFun hv j, hk⟩

theorem clearIds_spec {r : Reg K} (hr : Fine r) (ids : List Id) :
    Fine (clearIds r ids) ∧ (∀ j, j ∈ (clearIds r ids).keys ↔ j ∈ ids ∨ j ∈ r.keys) ∧
    ∀ j, (clearIds r ids).lamp j = if j ∈ ids then { r.lamp j with bulbs := [] } else r.lamp j := by
  obtain ⟨a, b, c⟩ := getLights_spec hr ids
  obtain ⟨x, y, z⟩ := changes_spec a (ids := ids) (fun i hi => (c i).2 (Or.inl hi)) (fun l => { l with bulbs := [] }) (fun _ => rfl)
  refine ⟨x, fun j => ?_, fun j => ?_⟩
  · unfold clearIds; rw [y, c]
  · unfold clearIds; rw [z, b]

theorem addIds_spec {r : Reg K} (hr : Fine r) (ids : List Id) (s : Text) :
    Fine (addIds r ids s).1 ∧ (∀ j, j ∈ (addIds r ids s).1.keys ↔ j ∈ ids ∨ j ∈ r.keys) ∧
    (addIds r ids s).2 = (addAll s ids fun j => (r.lamp j).bulbs).2 ∧
    (∀ j, ((addIds r ids s).1.lamp j).bulbs = (addAll s ids fun j => (r.lamp j).bulbs).1 j) ∧
    (∀ j, ((addIds r ids s).1.lamp j).confidence = (r.lamp j).confidence) := by
  obtain ⟨a, b, c⟩ := getLights_spec hr ids
  obtain ⟨x, y, z, u, v⟩ := setEach_spec a (ids := ids) (fun i hi => (c i).2 (Or.inl hi)) s
  unfold addIds
  rw [b] at z u v
  exact ⟨x, fun j => by rw [y, c], z, u, v⟩

theorem emplace_emplace (b : Bulb) (l : List Bulb) : emplace b (emplace b l) = emplace b l := by
  induction l with
  | nil => simp [emplace]
  | cons x l ih =>
    simp only [emplace]
    split
    · simp [emplace]
    · split
      · rename_i h1 h2
        simp only [emplace]
        rw [if_neg h1, if_pos h2, ih]
      · rename_i h1 h2
        simp only [emplace]
        rw [if_neg h1, if_neg h2]

theorem applyIds_fine {r : Reg K} (hr : Fine r) (ids : List Id) (o : Op K) (ho : ∀ i, o = .stop i → ids = [i]) :
    Fine (applyIds r ids o).1 ∧ ∀ j, j ∈ (applyIds r ids o).1.keys ↔ j ∈ ids ∨ j ∈ r.keys := by
  obtain ⟨a, b, c⟩ := getLights_spec hr ids
  have hin : ∀ i ∈ ids, i ∈ (getLights r ids).keys := fun i hi => (c i).2 (Or.inl hi)
  cases o with
  | set i s =>
    obtain ⟨x, y, _⟩ := clearIds_spec hr ids
    obtain ⟨x', y', _⟩ := addIds_spec x ids s
    refine ⟨x', fun j => ?_⟩
    simp only [applyIds]
    rw [y', y]; tauto
  | clear i => obtain ⟨x, y, _⟩ := clearIds_spec hr ids; exact ⟨x, y⟩
  | add i s => obtain ⟨x, y, _⟩ := addIds_spec hr ids s; exact ⟨x, y⟩
  | color i col =>
    obtain ⟨x, y, _⟩ := changes_spec a hin (fun l => { l with bulbs := emplace ⟨col, .solidOn, .circle⟩ l.bulbs })
      (fun l => by simp [emplace_emplace])
    refine ⟨x, fun j => ?_⟩
    simp only [applyIds]; rw [y, c]
  | confidence i k =>
    obtain ⟨x, y, _⟩ := changes_spec a hin (fun l => { l with confidence := k }) (fun l => rfl)
    refine ⟨x, fun j => ?_⟩
    simp only [applyIds]; rw [y, c]
  | compare i s => exact ⟨a, c⟩
  | composed i => exact ⟨a, c⟩
  | stop i =>
    obtain rfl := ho i rfl
    refine ⟨fine_getLight hr i, fun j => ?_⟩
    simp only [applyIds]
    rw [getLight_keys]; simp

theorem apply_eq (m : RoadMap) (r : Reg K) (o : Op K) :
    (∃ ids, apply m r o = applyIds r ids o ∧ ids = o.lights m ∧ (∀ i, o = .stop i → ids = [i])) ∨
      (apply m r o = (r, .error) ∧ o.lights m = []) := by
  cases o with
  | stop i =>
    by_cases h : m.lights i = some [i]
    · refine Or.inl ⟨[i], by simp [apply, h], by simp [Op.lights, h], fun j hj => by cases hj; rfl⟩
    · exact Or.inr ⟨by simp [apply, h], by simp [Op.lights, h]⟩
  | _ i =>
    all_goals
      cases h : m.lights i with
      | none => exact Or.inr ⟨by simp [apply, Op.id, h], by simp [Op.lights, Op.id, h]⟩
      | some ids => exact Or.inl ⟨ids, by simp [apply, Op.id, h], by simp [Op.lights, Op.id, h], fun j hj => by cases hj⟩

theorem apply_fine (m : RoadMap) {r : Reg K} (hr : Fine r) (o : Op K) :
    Fine (apply m r o).1 ∧ ∀ j, j ∈ (apply m r o).1.keys ↔ j ∈ o.lights m ∨ j ∈ r.keys := by
  rcases apply_eq m r o with ⟨ids, e, h, ho⟩ | ⟨e, h⟩
  · rw [e, ← h]; exact applyIds_fine hr ids o ho
  · rw [e, h]; exact ⟨hr, fun j => by simp⟩

theorem after_concat (m : RoadMap) (h : List (Op K)) (o : Op K) : after m (h ++ [o]) = (apply m (after m h) o).1 := by
  simp [after]

end Verif.Lamps
