import Verif.Convert.LightSpec
/-
C108: what is published about the traffic lights is their state.
-/
namespace Verif.Convert.Lights
open Verif.Light (Color Status Shape Bulb)

variable {D F : Type}

theorem cut_eq {i : Int} (h : Fits i) : cut i = i := by
  obtain ⟨h1, h2⟩ := h
  unfold cut
  rw [Int.bmod_eq_of_le] <;> omega

theorem map_cut {l : List Int} (h : ∀ g ∈ l, Fits g) : l.map cut = l := by
  induction l with
  | nil => rfl
  | cons a l ih => rw [List.map_cons, cut_eq (h a (by simp)), ih (fun g hg => h g (by simp [hg]))]

/-- The direct conversion of a bulb (`TrafficLightBulbV1`) shows it. -/
theorem C108_direct (narrow : D → F) (one : F) (l : Light D) :
    (directLight narrow one l).1 = l.way ∧ List.Forall₂ (Shows (narrow l.confidence)) l.bulbs (directLight narrow one l).2 := by
  refine ⟨rfl, ?_⟩
  simp only [directLight]
  rw [List.forall₂_map_right_iff, List.forall₂_same]
  rintro ⟨c, s, h⟩ -
  refine ⟨?_, ?_, ?_, rfl⟩
  · cases c <;> simp [ColorIs, directBulb]
  · cases s <;> simp [StatusIs, directBulb]
  · cases h <;> simp [ShapeIs, directBulb]

theorem element_hints (one c : F) (b : Bulb) : Hints c b (element { protoBulb one b with confidence := c }) := by
  obtain ⟨c, s, h⟩ := b
  refine ⟨?_, ?_, rfl, ?_⟩
  · cases c <;> simp [ColorIs, element, protoBulb, protoColor, elementColor]
  · cases s <;> simp [StatusIs, element, protoBulb, protoStatus, elementStatus]
  · cases h <;> simp [ShapeIs, element, protoBulb, protoShape, elementShape]

/-! ### The request -/

theorem applyOne_mem (narrow : D → F) (one : F) (d : Light D) (r : List (ProtoLight F)) (hr : (r.map (·.id)).Nodup) (s : ProtoLight F) :
    s ∈ applyOne narrow one d r ↔
      (s ∈ r ∧ s.id ≠ d.way) ∨ (∃ o ∈ r, o.id = d.way ∧ s = { o with bulbs := (protoLight narrow one d).bulbs }) ∨
        ((∀ o ∈ r, o.id ≠ d.way) ∧ s = protoLight narrow one d) := by
  induction r with
  | nil => simp [applyOne]
  | cons a r ih =>
    rw [List.map_cons, List.nodup_cons] at hr
    unfold applyOne
    by_cases ha : a.id = d.way
    · rw [if_pos ha]
      have hne : ∀ o ∈ r, o.id ≠ d.way := by
        intro o ho e
        exact hr.1 (List.mem_map.2 ⟨o, ho, by rw [e, ha]⟩)
      constructor
      · intro h
        rcases List.mem_cons.1 h with h | h
        · exact Or.inr (Or.inl ⟨a, by simp, ha, h⟩)
        · exact Or.inl ⟨by simp [h], hne s h⟩
      · rintro (⟨h, h'⟩ | ⟨o, ho, h1, h2⟩ | ⟨h, -⟩)
        · rcases List.mem_cons.1 h with h | h
          · exact absurd ha (h ▸ h')
          · exact List.mem_cons_of_mem _ h
        · rcases List.mem_cons.1 ho with h | h
          · subst h; exact h2 ▸ List.mem_cons_self
          · exact absurd h1 (hne o h)
        · exact absurd ha (h a (by simp))
    · rw [if_neg ha, List.mem_cons, ih hr.2]
      constructor
      · rintro (h | ⟨h, h'⟩ | ⟨o, ho, h⟩ | ⟨h, h'⟩)
        · exact Or.inl ⟨by simp [h], h ▸ ha⟩
        · exact Or.inl ⟨by simp [h], h'⟩
        · exact Or.inr (Or.inl ⟨o, by simp [ho], h⟩)
        · refine Or.inr (Or.inr ⟨?_, h'⟩)
          intro o ho
          rcases List.mem_cons.1 ho with e | e
          · exact e ▸ ha
          · exact h o e
      · rintro (⟨h, h'⟩ | ⟨o, ho, h1, h2⟩ | ⟨h, h'⟩)
        · rcases List.mem_cons.1 h with h | h
          · exact Or.inl h
          · exact Or.inr (Or.inl ⟨h, h'⟩)
        · rcases List.mem_cons.1 ho with h | h
          · subst h; exact absurd h1 ha
          · exact Or.inr (Or.inr (Or.inl ⟨o, h, h1, h2⟩))
        · exact Or.inr (Or.inr (Or.inr ⟨fun o ho => h o (by simp [ho]), h'⟩))

theorem applyOne_ids (narrow : D → F) (one : F) (d : Light D) (r : List (ProtoLight F)) :
    ((applyOne narrow one d r).map (·.id) = r.map (·.id) ∧ d.way ∈ r.map (·.id)) ∨
      ((applyOne narrow one d r).map (·.id) = r.map (·.id) ++ [cut d.way] ∧ d.way ∉ r.map (·.id)) := by
  induction r with
  | nil => right; simp [applyOne, protoLight]
  | cons a r ih =>
    unfold applyOne
    by_cases ha : a.id = d.way
    · left; simp [ha]
    · rw [if_neg ha]
      rcases ih with ⟨h1, h2⟩ | ⟨h1, h2⟩
      · left
        refine ⟨by rw [List.map_cons, h1, List.map_cons], ?_⟩
        rw [List.map_cons]; exact List.mem_cons_of_mem _ h2
      · right
        refine ⟨by rw [List.map_cons, h1, List.map_cons, List.cons_append], ?_⟩
        rw [List.map_cons, List.mem_cons, not_or]
        exact ⟨fun e => ha e.symm, h2⟩

theorem applyOne_nodup (narrow : D → F) (one : F) (d : Light D) (hd : Fits d.way) (r : List (ProtoLight F)) (hr : (r.map (·.id)).Nodup) :
    ((applyOne narrow one d r).map (·.id)).Nodup := by
  rcases applyOne_ids narrow one d r with ⟨h, -⟩ | ⟨h, h'⟩
  · rw [h]; exact hr
  · rw [h, cut_eq hd]
    rw [List.nodup_append]
    refine ⟨hr, by simp, ?_⟩
    intro a ha b hb e
    rw [List.mem_singleton] at hb
    subst hb; subst e; exact h' ha

theorem apply_mem (narrow : D → F) (one : F) (det : List (Light D)) : ∀ (r : List (ProtoLight F)), (r.map (·.id)).Nodup →
    (det.map (·.way)).Nodup → (∀ d ∈ det, Fits d.way) →
    ((apply narrow one det r).map (·.id)).Nodup ∧ ∀ s : ProtoLight F, s ∈ apply narrow one det r ↔
      (s ∈ r ∧ ∀ d ∈ det, d.way ≠ s.id) ∨ (∃ d ∈ det, ∃ o ∈ r, o.id = d.way ∧ s = { o with bulbs := (protoLight narrow one d).bulbs }) ∨
        (∃ d ∈ det, (∀ o ∈ r, o.id ≠ d.way) ∧ s = protoLight narrow one d) := by
  induction det with
  | nil => intro r hr _ _; exact ⟨hr, fun s => by simp [apply]⟩
  | cons d det ih =>
    intro r hr hn hf
    rw [List.map_cons, List.nodup_cons] at hn
    have hd : Fits d.way := hf d (by simp)
    obtain ⟨i1, i2⟩ := ih (applyOne narrow one d r) (applyOne_nodup narrow one d hd r hr) hn.2 (fun x hx => hf x (by simp [hx]))
    have hne : ∀ x ∈ det, x.way ≠ d.way := fun x hx e => hn.1 (List.mem_map.2 ⟨x, hx, e⟩)
    have hunf : apply narrow one (d :: det) r = apply narrow one det (applyOne narrow one d r) := rfl
    rw [hunf]
    refine ⟨i1, fun s => ?_⟩
    rw [i2 s]
    have M := applyOne_mem narrow one d r hr
    have hpid : (protoLight narrow one d).id = d.way := cut_eq hd
    constructor
    · rintro (⟨h, h'⟩ | ⟨x, hx, o, ho, h1, h2⟩ | ⟨x, hx, h1, h2⟩)
      · rcases (M s).1 h with ⟨a, b⟩ | ⟨o, ho, a, b⟩ | ⟨a, b⟩
        · refine Or.inl ⟨a, ?_⟩
          intro y hy
          rcases List.mem_cons.1 hy with e | e
          · subst e; exact fun e' => b e'.symm
          · exact h' y e
        · exact Or.inr (Or.inl ⟨d, by simp, o, ho, a, b⟩)
        · exact Or.inr (Or.inr ⟨d, by simp, a, b⟩)
      · rcases (M o).1 ho with ⟨a, b⟩ | ⟨o', ho', a, b⟩ | ⟨a, b⟩
        · exact Or.inr (Or.inl ⟨x, by simp [hx], o, a, h1, h2⟩)
        · exact absurd (show x.way = d.way by rw [← h1, b]; exact a) (hne x hx)
        · exact absurd (show x.way = d.way by rw [← h1, b, hpid]) (hne x hx)
      · refine Or.inr (Or.inr ⟨x, by simp [hx], ?_, h2⟩)
        intro o ho e
        by_cases h : o.id = d.way
        · exact absurd (e.symm.trans h) (hne x hx)
        · exact h1 o ((M o).2 (Or.inl ⟨ho, h⟩)) e
    · rintro (⟨h, h'⟩ | ⟨x, hx, o, ho, h1, h2⟩ | ⟨x, hx, h1, h2⟩)
      · exact Or.inl ⟨(M s).2 (Or.inl ⟨h, fun e => h' d (by simp) e.symm⟩), fun y hy => h' y (by simp [hy])⟩
      · rcases List.mem_cons.1 hx with e | e
        · subst e
          refine Or.inl ⟨(M s).2 (Or.inr (Or.inl ⟨o, ho, h1, h2⟩)), ?_⟩
          intro y hy
          rw [h2]; show y.way ≠ o.id
          rw [h1]; exact hne y hy
        · exact Or.inr (Or.inl ⟨x, e, o, (M o).2 (Or.inl ⟨ho, by rw [h1]; exact hne x e⟩), h1, h2⟩)
      · rcases List.mem_cons.1 hx with e | e
        · subst e
          refine Or.inl ⟨(M s).2 (Or.inr (Or.inr ⟨h1, h2⟩)), ?_⟩
          intro y hy
          rw [h2, hpid]; exact hne y hy
        · refine Or.inr (Or.inr ⟨x, e, ?_, h2⟩)
          intro o ho
          rcases (M o).1 ho with ⟨a, b⟩ | ⟨o', ho', a, b⟩ | ⟨a, b⟩
          · exact h1 o a
          · rw [b]; show o'.id ≠ x.way; rw [a]; exact fun e' => hne x e e'.symm
          · rw [b, hpid]; exact fun e' => hne x e e'.symm

theorem request_ids (narrow : D → F) (one : F) {lights : List (Light D)} (hl : ∀ l ∈ lights, LightFits l) :
    (request narrow one lights).map (·.id) = lights.map (·.way) := by
  rw [request, List.map_map]
  exact List.map_congr_left fun l h => cut_eq (hl l h).1

/-- What is sent about the way `w`: exactly one state with its regulatory elements and its bulbs, as the protocol numbers them. -/
theorem send_iff (narrow : D → F) (one : F) {lights detected : List (Light D)} (h : Proper lights detected) :
    ((send narrow one lights detected).map (·.id)).Nodup ∧
    ∀ s : ProtoLight F, s ∈ send narrow one lights detected ↔
      ∃ (reg : List Int) (bulbs : List Bulb) (c : D), Seen lights detected s.id reg bulbs c ∧ s.relations = reg ∧
        s.bulbs = bulbs.map fun b => { protoBulb one b with confidence := narrow c } := by
  obtain ⟨h1, h2, h3, h4⟩ := h
  have R := request_ids narrow one h3
  obtain ⟨a1, a2⟩ := apply_mem narrow one detected (request narrow one lights) (by rw [R]; exact h1) h2 (fun d hd => (h4 d hd).1)
  refine ⟨a1, fun s => ?_⟩
  have hmem : ∀ o : ProtoLight F, o ∈ request narrow one lights ↔ ∃ l ∈ lights, protoLight narrow one l = o := by
    intro o; rw [request, List.mem_map]
  have hid : ∀ l ∈ lights, (protoLight narrow one l).id = l.way := fun l hl => cut_eq (h3 l hl).1
  have hreg : ∀ l ∈ lights, (protoLight narrow one l).relations = l.regulatory := fun l hl => map_cut (h3 l hl).2
  have hid' : ∀ l ∈ detected, (protoLight narrow one l).id = l.way := fun l hl => cut_eq (h4 l hl).1
  have hreg' : ∀ l ∈ detected, (protoLight narrow one l).relations = l.regulatory := fun l hl => map_cut (h4 l hl).2
  rw [send, a2 s]
  constructor
  · rintro (⟨h, h'⟩ | ⟨d, hd, o, ho, e1, e2⟩ | ⟨d, hd, e1, e2⟩)
    · obtain ⟨l, hl, rfl⟩ := (hmem s).1 h
      exact ⟨l.regulatory, l.bulbs, l.confidence, Or.inr ⟨h', l, hl, (hid l hl).symm, rfl, rfl, rfl⟩, hreg l hl, rfl⟩
    · obtain ⟨l, hl, rfl⟩ := (hmem o).1 ho
      subst e2
      refine ⟨l.regulatory, d.bulbs, d.confidence, Or.inl ⟨d, hd, e1.symm, rfl, rfl, Or.inl ⟨l, hl, (hid l hl).symm, rfl⟩⟩, hreg l hl, rfl⟩
    · subst e2
      refine ⟨d.regulatory, d.bulbs, d.confidence, Or.inl ⟨d, hd, (hid' d hd).symm, rfl, rfl, Or.inr ⟨?_, rfl⟩⟩, hreg' d hd, rfl⟩
      intro l hl e
      exact e1 _ ((hmem _).2 ⟨l, hl, rfl⟩) (by rw [hid l hl, e, hid' d hd])
  · rintro ⟨reg, bulbs, c, hs, e1, e2⟩
    rcases hs with ⟨d, hd, w, b1, b2, hr⟩ | ⟨hn, l, hl, w, b1, b2, b3⟩
    · rcases hr with ⟨l, hl, w', r'⟩ | ⟨hn, r'⟩
      · refine Or.inr (Or.inl ⟨d, hd, protoLight narrow one l, (hmem _).2 ⟨l, hl, rfl⟩, by rw [hid l hl, w', w], ?_⟩)
        obtain ⟨i, bs, rs⟩ := s
        simp only at w w' e1 e2
        subst w'; subst r'; subst e1; subst e2; subst b1; subst b2
        have := hid l hl
        have := hreg l hl
        simp_all [protoLight]
      · refine Or.inr (Or.inr ⟨d, hd, ?_, ?_⟩)
        · intro o ho
          obtain ⟨l, hl, rfl⟩ := (hmem o).1 ho
          rw [hid l hl, w]; exact hn l hl
        · obtain ⟨i, bs, rs⟩ := s
          have := hid' d hd
          have := hreg' d hd
          simp_all [protoLight]
    · refine Or.inl ⟨(hmem s).2 ⟨l, hl, ?_⟩, hn⟩
      obtain ⟨i, bs, rs⟩ := s
      have := hid l hl
      have := hreg l hl
      simp_all [protoLight]

/-- Published groups (`TrafficLightGroupArray`): a group is in the message exactly if it is a regulatory element of a light with bulbs to be seen; its elements show
these bulbs in order, with the confidence of the light; its predictions are those made for that light. Hypothesis and result are weaker than the property:
ids of 32 bits are assumed, and arrows to the upper left and right may be shown as unknown. -/
theorem C108_groups_partial (narrow : D → F) (one : F) (p : Predictions F) {lights detected : List (Light D)} (h : Proper lights detected) :
    (∀ g ∈ groupArray p (send narrow one lights detected), ∃ (w : Int) (reg : List Int) (bulbs : List Bulb) (c : D),
      Seen lights detected w reg bulbs c ∧ bulbs ≠ [] ∧ g.id ∈ reg ∧ List.Forall₂ (Hints (narrow c)) bulbs g.elements ∧
      g.predictions = (p w).map fun q => (q.1, q.2.map element)) ∧
    (∀ (w : Int) (reg : List Int) (bulbs : List Bulb) (c : D), Seen lights detected w reg bulbs c → bulbs ≠ [] → ∀ i ∈ reg,
      ∃ g ∈ groupArray p (send narrow one lights detected), g.id = i ∧ List.Forall₂ (Hints (narrow c)) bulbs g.elements ∧
        g.predictions = (p w).map fun q => (q.1, q.2.map element)) := by
  obtain ⟨-, a2⟩ := send_iff narrow one h
  have el : ∀ (bulbs : List Bulb) (c : D), List.Forall₂ (Hints (narrow c)) bulbs
      ((bulbs.map fun b => { protoBulb one b with confidence := narrow c }).map element) := by
    intro bulbs c
    rw [List.map_map, List.forall₂_map_right_iff, List.forall₂_same]
    exact fun b _ => element_hints one (narrow c) b
  constructor
  · intro g hg
    rw [groupArray, List.mem_flatMap] at hg
    obtain ⟨s, hs, hg⟩ := hg
    obtain ⟨reg, bulbs, c, k1, k2, k3⟩ := (a2 s).1 hs
    rw [groupsOf, List.mem_flatMap] at hg
    obtain ⟨i, hi, hg⟩ := hg
    split at hg
    · simp at hg
    · rename_i hne
      rw [List.mem_singleton] at hg
      subst hg
      refine ⟨s.id, reg, bulbs, c, k1, ?_, k2 ▸ hi, ?_, rfl⟩
      · rintro rfl; rw [k3] at hne; simp at hne
      · show List.Forall₂ _ bulbs (s.bulbs.map element)
        rw [k3]; exact el bulbs c
  · intro w reg bulbs c hs hne i hi
    have hin := (a2 ⟨w, bulbs.map fun b => { protoBulb one b with confidence := narrow c }, reg⟩).2 ⟨reg, bulbs, c, hs, rfl, rfl⟩
    refine ⟨⟨i, _, _⟩, List.mem_flatMap.2 ⟨_, hin, List.mem_flatMap.2 ⟨i, hi, ?_⟩⟩, rfl, el bulbs c, rfl⟩
    have : (List.map (fun b => { protoBulb one b with confidence := narrow c }) bulbs).isEmpty = false := by
      cases bulbs with
      | nil => exact absurd rfl hne
      | cons a l => rfl
    simp [this]

/-- The published array of ways (`TrafficLightArrayV1`): each way to be seen is in it once, with its bulbs. The restrictions are those of the groups. -/
theorem C108_ways_partial (narrow : D → F) (one : F) {lights detected : List (Light D)} (h : Proper lights detected) :
    ((lightArray (send narrow one lights detected)).map (·.1)).Nodup ∧
    (∀ m ∈ lightArray (send narrow one lights detected), ∃ (reg : List Int) (bulbs : List Bulb) (c : D),
      Seen lights detected m.1 reg bulbs c ∧ List.Forall₂ (Hints (narrow c)) bulbs m.2) ∧
    (∀ (w : Int) (reg : List Int) (bulbs : List Bulb) (c : D), Seen lights detected w reg bulbs c →
      ∃ es, (w, es) ∈ lightArray (send narrow one lights detected) ∧ List.Forall₂ (Hints (narrow c)) bulbs es) := by
  obtain ⟨a1, a2⟩ := send_iff narrow one h
  have el : ∀ (bulbs : List Bulb) (c : D), List.Forall₂ (Hints (narrow c)) bulbs
      ((bulbs.map fun b => { protoBulb one b with confidence := narrow c }).map element) := by
    intro bulbs c
    rw [List.map_map, List.forall₂_map_right_iff, List.forall₂_same]
    exact fun b _ => element_hints one (narrow c) b
  refine ⟨?_, ?_, ?_⟩
  · rw [lightArray, List.map_map]; exact a1
  · intro m hm
    rw [lightArray, List.mem_map] at hm
    obtain ⟨s, hs, rfl⟩ := hm
    obtain ⟨reg, bulbs, c, k1, k2, k3⟩ := (a2 s).1 hs
    refine ⟨reg, bulbs, c, k1, ?_⟩
    show List.Forall₂ _ bulbs (s.bulbs.map element)
    rw [k3]; exact el bulbs c
  · intro w reg bulbs c hs
    have hin := (a2 ⟨w, bulbs.map fun b => { protoBulb one b with confidence := narrow c }, reg⟩).2 ⟨reg, bulbs, c, hs, rfl, rfl⟩
    exact ⟨_, List.mem_map.2 ⟨_, hin, rfl⟩, el bulbs c⟩

/-- Nothing is published twice: what is sent has each way once, and the groups are the regulatory elements of the lights with bulbs, in order, as often as they are
listed. -/
theorem C108_once (narrow : D → F) (one : F) (p : Predictions F) {lights detected : List (Light D)} (h : Proper lights detected) :
    ((send narrow one lights detected).map (·.id)).Nodup ∧
    (groupArray p (send narrow one lights detected)).map (·.id) =
      ((send narrow one lights detected).filter fun s => !s.bulbs.isEmpty).flatMap (·.relations) := by
  refine ⟨(send_iff narrow one h).1, ?_⟩
  generalize send narrow one lights detected = r
  induction r with
  | nil => rfl
  | cons s r ih =>
    have e : groupArray p (s :: r) = groupsOf p s ++ groupArray p r := rfl
    rw [e, List.map_append, ih, List.filter_cons]
    by_cases hb : s.bulbs.isEmpty = true
    · have : groupsOf p s = [] := by simp [groupsOf, hb]
      rw [this, if_neg (by simp [hb])]; rfl
    · have : (groupsOf p s).map (·.id) = s.relations := by
        rw [groupsOf]
        induction s.relations with
        | nil => rfl
        | cons a l ih => rw [List.flatMap_cons, List.map_append, ih, if_neg hb]; rfl
      rw [this, if_pos (by simpa using hb)]; rfl

/-- Two lights, one of which is detected differently, and a detected light without ground truth. -/
example : Proper (D := Rat) [⟨1, [10, 11], 1, [⟨.red, .solidOn, .circle⟩]⟩, ⟨2, [10], 1, []⟩] [⟨2, [10], 1, [⟨.green, .flashing, .upperLeft⟩]⟩, ⟨3, [12], 1, []⟩] ∧
    groupArray (fun _ => []) (send id (1 : Rat) [⟨1, [10, 11], 1, [⟨.red, .solidOn, .circle⟩]⟩, ⟨2, [10], 1, []⟩]
      [⟨2, [10], 1, [⟨.green, .flashing, .upperLeft⟩]⟩, ⟨3, [12], 1, []⟩]) =
    [⟨10, [⟨1, 1, 2, 1⟩], []⟩, ⟨11, [⟨1, 1, 2, 1⟩], []⟩, ⟨10, [⟨3, 0, 3, 1⟩], []⟩] := by
  refine ⟨⟨by decide, by decide, ?_, ?_⟩, by decide +kernel⟩
  · intro l hl
    simp only [List.mem_cons, List.not_mem_nil, or_false] at hl
    rcases hl with rfl | rfl
    · exact ⟨by simp [Fits], by intro g hg; simp only [List.mem_cons, List.not_mem_nil, or_false] at hg; rcases hg with rfl | rfl <;> simp [Fits]⟩
    · exact ⟨by simp [Fits], by intro g hg; simp only [List.mem_cons, List.not_mem_nil, or_false] at hg; subst hg; simp [Fits]⟩
  · intro l hl
    simp only [List.mem_cons, List.not_mem_nil, or_false] at hl
    rcases hl with rfl | rfl
    · exact ⟨by simp [Fits], by intro g hg; simp only [List.mem_cons, List.not_mem_nil, or_false] at hg; subst hg; simp [Fits]⟩
    · exact ⟨by simp [Fits], by intro g hg; simp only [List.mem_cons, List.not_mem_nil, or_false] at hg; subst hg; simp [Fits]⟩

/-- An arrow to the upper left is published as an unknown shape. -/
theorem C108_upper_violated : ∃ g ∈ groupArray (F := Rat) (fun _ => []) (send id 1 [⟨1, [10], 1, [⟨.green, .solidOn, .upperLeft⟩]⟩] []),
    ¬ List.Forall₂ (Shows 1) [⟨.green, .solidOn, .upperLeft⟩] g.elements := by
  refine ⟨⟨10, [⟨3, 0, 2, 1⟩], []⟩, by decide +kernel, ?_⟩
  simp [Shows, ShapeIs]

/-- The id of a light beyond 32 bits is published as another id, that of a different light: here the bulbs of the light 2^32 + 7 are published for 7, and what is
detected for it is published as a third light. -/
theorem C108_id_violated :
    lightArray (send (D := Rat) id 1 [⟨7, [], 1, [⟨.red, .solidOn, .circle⟩]⟩, ⟨2 ^ 32 + 7, [], 1, [⟨.green, .solidOn, .circle⟩]⟩]
      [⟨2 ^ 32 + 7, [], 1, [⟨.white, .solidOn, .circle⟩]⟩]) = [(7, [⟨1, 1, 2, 1⟩]), (7, [⟨3, 1, 2, 1⟩]), (7, [⟨4, 1, 2, 1⟩])] := by
  decide +kernel

/-! ### Predictions -/

/-- Times that are different phases. -/
def Apart (a b : Int) : Prop := 10000000 < (a - b).natAbs

theorem addPhase_apart (t : Int) (b : ProtoBulb F) (l : List (Phase F)) (h : (l.map (·.1)).Pairwise Apart) :
    ((addPhase t b l).map (·.1)).Pairwise Apart ∧ ∀ x ∈ (addPhase t b l).map (·.1), x ∈ l.map (·.1) ∨ x = t := by
  induction l with
  | nil => simp [addPhase]
  | cons p l ih =>
    rw [List.map_cons, List.pairwise_cons] at h
    unfold addPhase
    split
    · exact ⟨by rw [List.map_cons, List.pairwise_cons]; exact h, by intro x hx; left; exact hx⟩
    · rename_i hp
      obtain ⟨i1, i2⟩ := ih h.2
      constructor
      · rw [List.map_cons, List.pairwise_cons]
        refine ⟨?_, i1⟩
        intro x hx
        rcases i2 x hx with e | e
        · exact h.1 x e
        · subst e; unfold Apart; omega
      · intro x hx
        rw [List.map_cons, List.mem_cons] at hx ⊢
        rcases hx with e | e
        · exact Or.inl (Or.inl e)
        · rcases i2 x e with e | e
          · exact Or.inl (Or.inr e)
          · exact Or.inr e

theorem addPhase_bulb (t : Int) (b : ProtoBulb F) (l : List (Phase F)) :
    (∃ q ∈ addPhase t b l, (q.1 - t).natAbs ≤ 10000000 ∧ b ∈ q.2) ∧
    (∀ q ∈ l, ∀ x ∈ q.2, ∃ q' ∈ addPhase t b l, q'.1 = q.1 ∧ x ∈ q'.2) ∧
    (∀ q ∈ addPhase t b l, ∀ x ∈ q.2, (x = b ∧ (q.1 - t).natAbs ≤ 10000000) ∨ ∃ q' ∈ l, q'.1 = q.1 ∧ x ∈ q'.2) := by
  induction l with
  | nil => simp [addPhase]
  | cons p l ih =>
    unfold addPhase
    split
    · rename_i hp
      refine ⟨⟨_, List.mem_cons_self, hp, by simp⟩, ?_, ?_⟩
      · intro q hq x hx
        rcases List.mem_cons.1 hq with e | e
        · subst e; exact ⟨_, List.mem_cons_self, rfl, by simp [hx]⟩
        · exact ⟨q, List.mem_cons_of_mem _ e, rfl, hx⟩
      · intro q hq x hx
        rcases List.mem_cons.1 hq with e | e
        · subst e
          rcases List.mem_append.1 hx with h | h
          · exact Or.inr ⟨p, by simp, rfl, h⟩
          · exact Or.inl ⟨by simpa using h, hp⟩
        · exact Or.inr ⟨q, List.mem_cons_of_mem _ e, rfl, hx⟩
    · obtain ⟨⟨q, i1, i2⟩, i3, i4⟩ := ih
      refine ⟨⟨q, List.mem_cons_of_mem _ i1, i2⟩, ?_, ?_⟩
      · intro q hq x hx
        rcases List.mem_cons.1 hq with e | e
        · subst e; exact ⟨q, List.mem_cons_self, rfl, hx⟩
        · obtain ⟨q', a, b⟩ := i3 q e x hx
          exact ⟨q', List.mem_cons_of_mem _ a, b⟩
      · intro q hq x hx
        rcases List.mem_cons.1 hq with e | e
        · subst e; exact Or.inr ⟨q, List.mem_cons_self, rfl, hx⟩
        · rcases i4 q e x hx with h | ⟨q', a, b⟩
          · exact Or.inl h
          · exact Or.inr ⟨q', List.mem_cons_of_mem _ a, b⟩

/-- The published predictions of a light after any sequence of requests: its phases are more than 10 ms apart; each requested state is in a phase within 10 ms of
the time requested; each state in a phase was requested for that light within 10 ms of the time of the phase. The arrows to the upper left and right
are shown as unknown. -/
theorem C108_predictions_partial (one : F) (rs : List Foreseen) (w : Int) :
    ((foresee one rs w).map (·.1)).Pairwise (fun a b => 10000000 < (a - b).natAbs) ∧
    (∀ r ∈ rs, r.way = w → ∃ q ∈ (foresee one rs w).map (fun q => (q.1, q.2.map element)),
      (q.1 - r.time).natAbs ≤ 10000000 ∧ ∃ e ∈ q.2, Hints one r.bulb e) ∧
    (∀ q ∈ (foresee one rs w).map (fun q => (q.1, q.2.map element)), ∀ e ∈ q.2,
      ∃ r ∈ rs, r.way = w ∧ (q.1 - r.time).natAbs ≤ 10000000 ∧ Hints one r.bulb e) := by
  have key : ∀ (rs : List Foreseen) (p : Predictions F), ((p w).map (·.1)).Pairwise Apart →
      (((rs.foldl (fun p r => addPrediction one r.way r.bulb r.time p) p) w).map (·.1)).Pairwise Apart ∧
      (∀ q ∈ p w, ∀ x ∈ q.2, ∃ q' ∈ (rs.foldl (fun p r => addPrediction one r.way r.bulb r.time p) p) w, q'.1 = q.1 ∧ x ∈ q'.2) ∧
      (∀ r ∈ rs, r.way = w → ∃ q ∈ (rs.foldl (fun p r => addPrediction one r.way r.bulb r.time p) p) w,
        (q.1 - r.time).natAbs ≤ 10000000 ∧ protoBulb one r.bulb ∈ q.2) ∧
      (∀ q ∈ (rs.foldl (fun p r => addPrediction one r.way r.bulb r.time p) p) w, ∀ x ∈ q.2,
        (∃ r ∈ rs, r.way = w ∧ (q.1 - r.time).natAbs ≤ 10000000 ∧ x = protoBulb one r.bulb) ∨ ∃ q' ∈ p w, q'.1 = q.1 ∧ x ∈ q'.2) := by
    intro rs
    induction rs with
    | nil =>
      intro p hp
      exact ⟨hp, fun q hq x hx => ⟨q, hq, rfl, hx⟩, fun r hr => absurd hr (by simp), fun q hq x hx => Or.inr ⟨q, hq, rfl, hx⟩⟩
    | cons r rs ih =>
      intro p hp
      rw [List.foldl_cons]
      by_cases hw : r.way = w
      · have e : addPrediction one r.way r.bulb r.time p w = addPhase r.time (protoBulb one r.bulb) (p w) := by
          simp [addPrediction, hw]
        obtain ⟨j1, j2, j3, j4⟩ := ih (addPrediction one r.way r.bulb r.time p) (by rw [e]; exact (addPhase_apart _ _ _ hp).1)
        obtain ⟨k1, k2, k3⟩ := addPhase_bulb r.time (protoBulb one r.bulb) (p w)
        rw [e] at j2 j4
        refine ⟨j1, ?_, ?_, ?_⟩
        · intro q hq x hx
          obtain ⟨q', a, b, c⟩ := k2 q hq x hx
          obtain ⟨q2, a2, b2, c2⟩ := j2 q' a x c
          exact ⟨q2, a2, b2.trans b, c2⟩
        · intro r' hr' hw'
          rcases List.mem_cons.1 hr' with h | h
          · subst h
            obtain ⟨q, a, b, c⟩ := k1
            obtain ⟨q2, a2, b2, c2⟩ := j2 q a _ c
            exact ⟨q2, a2, b2 ▸ b, c2⟩
          · exact j3 r' h hw'
        · intro q hq x hx
          rcases j4 q hq x hx with ⟨r', a, b⟩ | ⟨q', a, b, c⟩
          · exact Or.inl ⟨r', by simp [a], b⟩
          · rcases k3 q' a x c with ⟨h1, h2⟩ | ⟨q2, a2, b2, c2⟩
            · exact Or.inl ⟨r, by simp, hw, b ▸ h2, h1⟩
            · exact Or.inr ⟨q2, a2, b2.trans b, c2⟩
      · have e : addPrediction one r.way r.bulb r.time p w = p w := by
          exact if_neg fun h => hw h.symm
        obtain ⟨j1, j2, j3, j4⟩ := ih (addPrediction one r.way r.bulb r.time p) (by rw [e]; exact hp)
        rw [e] at j2 j4
        refine ⟨j1, j2, ?_, ?_⟩
        · intro r' hr' hw'
          rcases List.mem_cons.1 hr' with h | h
          · exact absurd (h ▸ hw') hw
          · exact j3 r' h hw'
        · intro q hq x hx
          rcases j4 q hq x hx with ⟨r', a, b⟩ | h
          · exact Or.inl ⟨r', by simp [a], b⟩
          · exact Or.inr h
  obtain ⟨k1, -, k3, k4⟩ := key rs (fun _ => []) (by simp)
  refine ⟨k1, ?_, ?_⟩
  · intro r hr hw
    obtain ⟨q, a, b, c⟩ := k3 r hr hw
    exact ⟨_, List.mem_map.2 ⟨q, a, rfl⟩, b, _, List.mem_map.2 ⟨_, c, rfl⟩, element_hints one one r.bulb⟩
  · intro q hq e he
    obtain ⟨q0, hq0, rfl⟩ := List.mem_map.1 hq
    obtain ⟨x, hx, rfl⟩ := List.mem_map.1 he
    rcases k4 q0 hq0 x hx with ⟨r, a, b, c, d⟩ | ⟨q', a, -⟩
    · exact ⟨r, a, b, c, by rw [d]; exact element_hints one one r.bulb⟩
    · simp at a

/-- A request for a regulatory element is one for each of its lights. -/
theorem C108_element (one : F) (rs : List Foreseen) (ways : List Int) (b : Bulb) (t : Int) :
    addPredictions one ways b t (foresee one rs) = foresee one (rs ++ ways.map fun w => ⟨w, b, t⟩) := by
  simp only [foresee, addPredictions, List.foldl_append, List.foldl_map]

/-- Two requests of the same phase and one of another. -/
example : (foresee (1 : Rat) [⟨3, ⟨.red, .solidOn, .circle⟩, 5000000000⟩, ⟨3, ⟨.green, .solidOn, .left⟩, 5000000009⟩, ⟨3, ⟨.green, .solidOn, .circle⟩, 9000000000⟩] 3).map
    (fun q => (q.1, q.2.length)) = [(5000000000, 2), (9000000000, 1)] := by decide +kernel

end Verif.Convert.Lights
