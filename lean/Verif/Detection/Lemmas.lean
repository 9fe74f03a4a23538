import Verif.Detection.Model
/-
Lemmas about the detection sensor.
-/
namespace Verif.Detection
variable {Pose : Type}

theorem run_append (g : Geometry Pose) (c : Config Pose) (s : Sensor Pose) (a b : List (Input Pose)) :
    run g c s (a ++ b) = ((run g c (run g c s a).1 b).1, (run g c s a).2 ++ (run g c (run g c s a).1 b).2) := by
  induction a generalizing s with
  | nil => rfl
  | cons i a ih => simp only [List.cons_append, run, ih]

theorem recorded_append (a b : List (Rat × Out Pose)) : recorded (a ++ b) = recorded a ++ recorded b := by simp [recorded]
theorem objects_append (a b : List (Rat × Out Pose)) : objects (a ++ b) = objects a ++ objects b := by simp [objects]
theorem truths_append (a b : List (Rat × Out Pose)) : truths (a ++ b) = truths a ++ truths b := by simp [truths]

theorem pushPop_cases (delay now : Rat) (q : List (Frame Pose)) (f : List (Status Pose)) :
    ∃ h r, q ++ [(f, now)] = h :: r ∧
      (now - h.2 ≥ delay ∧ pushPop delay now q f = (r, some h) ∨
       ¬ now - h.2 ≥ delay ∧ pushPop delay now q f = (h :: r, none)) := by
  cases e : q ++ [(f, now)] with
  | nil => simp at e
  | cons h r =>
    refine ⟨h, r, rfl, ?_⟩
    unfold pushPop
    rw [e]
    by_cases c : now - h.2 ≥ delay
    · exact .inl ⟨c, by simp only [if_pos c]⟩
    · exact .inr ⟨c, by simp only [if_neg c]⟩

theorem select_sublist (g : Geometry Pose) (all : Bool) (lidar : List String) (ego : Pose) (plane : Option Pose)
    (l : List (Status Pose)) : (select g all lidar ego plane l).1.Sublist l := by
  induction l generalizing plane with
  | nil => exact List.Sublist.slnil
  | cons s l ih =>
    unfold select
    dsimp only
    split
    · exact (ih _).cons_cons s
    · exact (ih _).cons s

theorem select_mem (g : Geometry Pose) (all : Bool) (lidar : List String) (ego : Pose) (plane : Option Pose)
    (l : List (Status Pose)) : ∀ x ∈ (select g all lidar ego plane l).1,
      x.attached = false ∧ g.near x.pose ego = true ∧ (all = true ∨ x.name ∈ lidar) := by
  induction l generalizing plane with
  | nil => intro x hx; cases hx
  | cons s l ih =>
    intro x hx
    unfold select at hx
    dsimp only at hx
    split at hx
    · next h =>
      rcases List.mem_cons.mp hx with rfl | hx
      · unfold inRange at h
        cases h1 : x.attached with
        | true => simp [h1] at h
        | false =>
          cases h2 : g.near x.pose ego with
          | false => simp [h1, h2] at h
          | true =>
            simp only [h1, h2] at h
            refine ⟨rfl, rfl, ?_⟩
            simp at h
            exact h.2
      · exact ih _ x hx
    · exact ih _ x hx

theorem select_filter (g : Geometry Pose) (all : Bool) (lidar : List String) (ego : Pose) (plane : Option Pose)
    (l : List (Status Pose)) (h : ∀ x ∈ l, g.notFarBelow x.pose ego = true) :
    (select g all lidar ego plane l).1 =
      l.filter (fun x => !x.attached && g.near x.pose ego && (all || lidar.contains x.name)) := by
  induction l generalizing plane with
  | nil => rfl
  | cons s l ih =>
    unfold select
    dsimp only
    rw [ih _ (fun x hx => h x (by simp [hx]))]
    have hs := h s (by simp)
    rw [List.filter_cons]
    have : (inRange g all lidar ego plane s).1 = (!s.attached && g.near s.pose ego && (all || lidar.contains s.name)) := by
      unfold inRange onOrAbove
      cases s.attached <;> cases g.near s.pose ego <;> simp [hs]
    rw [this]

/-- What is known about one update that did something. -/
theorem update_done {g : Geometry Pose} {c : Config Pose} {s s' : Sensor Pose} {i : Input Pose}
    {f : List (Status Pose)} {o t : Option (List (Status Pose))} (h : update g c s i = (s', .done f o t)) :
    ∃ ego ∈ i.statuses, ego.attached = true ∧ f = (select g c.detectAll i.lidar ego.pose s.plane i.statuses).1 ∧
      s'.previous = i.now ∧
      s'.unpublished = (pushPop c.delay i.now s.unpublished f).1 ∧
      s'.unpublishedTruth = (pushPop c.groundTruthDelay i.now s.unpublishedTruth f).1 ∧
      t = (pushPop c.groundTruthDelay i.now s.unpublishedTruth f).2.map (·.1) ∧
      (((pushPop c.delay i.now s.unpublished f).2 = none ∧ o = none ∧ s'.noises = s.noises) ∨
       ∃ fr, (pushPop c.delay i.now s.unpublished f).2 = some fr ∧ o = some (noise c i.draws 0 s.noises fr.1).2 ∧
         s'.noises = (noise c i.draws 0 s.noises fr.1).1) := by
  unfold update at h
  split at h
  · split at h
    · cases h
    · next ego he =>
      have hm := List.mem_of_find?_eq_some he
      have ha := List.find?_some he
      simp only [Prod.mk.injEq, Out.done.injEq] at h
      obtain ⟨h1, h2, h3, h4⟩ := h
      subst h2
      subst h1
      refine ⟨ego, hm, ha, rfl, rfl, rfl, rfl, h4.symm, ?_⟩
      dsimp only at h3 ⊢
      cases hp : (pushPop c.delay i.now s.unpublished (select g c.detectAll i.lidar ego.pose s.plane i.statuses).1).2 with
      | none => rw [hp] at h3; exact .inl ⟨rfl, h3.symm, by simp only⟩
      | some fr => rw [hp] at h3; exact .inr ⟨fr, rfl, h3.symm, by simp only⟩
  · cases h

theorem update_skip {g : Geometry Pose} {c : Config Pose} {s s' : Sensor Pose} {i : Input Pose} {o : Out Pose}
    (h : update g c s i = (s', o)) (ho : o = .skipped ∨ o = .noEgo) :
    s'.unpublished = s.unpublished ∧ s'.unpublishedTruth = s.unpublishedTruth ∧ s'.noises = s.noises := by
  unfold update at h
  split at h
  · split at h
    · cases h; exact ⟨rfl, rfl, rfl⟩
    · simp only [Prod.mk.injEq] at h
      obtain ⟨_, rfl⟩ := h
      rcases ho with ho | ho <;> cases ho
  · cases h; exact ⟨rfl, rfl, rfl⟩

/-- The queue between recording and publication. -/
structure Queue (delay : Rat) (rel : List (Status Pose) → List (Status Pose) → Prop)
    (rec pub q : List (Frame Pose)) : Prop where
  rest : rec.drop pub.length = q
  le : pub.length ≤ rec.length
  each : ∀ (m : Nat) (o : Frame Pose), pub[m]? = some o → ∃ f : Frame Pose, rec[m]? = some f ∧ o.2 - f.2 ≥ delay ∧ rel o.1 f.1

theorem Queue.push {delay : Rat} {rel : List (Status Pose) → List (Status Pose) → Prop} {rec pub q : List (Frame Pose)}
    (h : Queue delay rel rec pub q) {now : Rat} {f : List (Status Pose)}
    (hn : (pushPop delay now q f).2 = none) :
    Queue delay rel (rec ++ [(f, now)]) pub (pushPop delay now q f).1 := by
  obtain ⟨hd, r, e, ⟨_, h2⟩ | ⟨_, h2⟩⟩ := pushPop_cases delay now q f
  · rw [h2] at hn; cases hn
  · rw [h2]
    refine ⟨?_, by simp; have := h.le; omega, ?_⟩
    · rw [List.drop_append_of_le_length h.le, h.rest, e]
    · intro m o ho
      obtain ⟨f', h1, h2⟩ := h.each m o ho
      refine ⟨f', ?_, h2⟩
      rw [List.getElem?_append_left (List.getElem?_eq_some_iff.mp h1).1, h1]

theorem Queue.pushPop {delay : Rat} {rel : List (Status Pose) → List (Status Pose) → Prop} {rec pub q : List (Frame Pose)}
    (h : Queue delay rel rec pub q) {now : Rat} {f o : List (Status Pose)} {fr : Frame Pose}
    (hn : (Detection.pushPop delay now q f).2 = some fr) (hr : rel o fr.1) :
    Queue delay rel (rec ++ [(f, now)]) (pub ++ [(o, now)]) (Detection.pushPop delay now q f).1 := by
  obtain ⟨hd, r, e, ⟨h1, h2⟩ | ⟨_, h2⟩⟩ := pushPop_cases delay now q f
  · rw [h2] at hn
    simp only [Option.some.injEq] at hn
    subst hn
    rw [h2]
    have hdrop : (rec ++ [(f, now)]).drop pub.length = hd :: r := by
      rw [List.drop_append_of_le_length h.le, h.rest, e]
    have hget : (rec ++ [(f, now)])[pub.length]? = some hd := by
      have := congrArg List.head? hdrop
      simpa using this
    have hlt := (List.getElem?_eq_some_iff.mp hget).1
    refine ⟨?_, by simp at hlt ⊢; omega, ?_⟩
    · rw [List.length_append, ← List.drop_drop, hdrop]; rfl
    · intro m o' ho
      by_cases hm : m < pub.length
      · rw [List.getElem?_append_left hm] at ho
        obtain ⟨f', a1, a2⟩ := h.each m o' ho
        refine ⟨f', ?_, a2⟩
        rw [List.getElem?_append_left (List.getElem?_eq_some_iff.mp a1).1, a1]
      · rw [List.getElem?_append_right (by omega)] at ho
        have : m - pub.length = 0 := by
          have := (List.getElem?_eq_some_iff.mp ho).1
          simp at this; omega
        rw [this] at ho
        simp only [List.getElem?_cons_zero, Option.some.injEq] at ho
        subst ho
        have : m = pub.length := by omega
        subst this
        exact ⟨hd, hget, h1, hr⟩
  · rw [h2] at hn; cases hn

/-- The general form: `J` is an invariant of the state of the noise under which it relates a frame and
what is published of it by `rel`. -/
theorem run_spec (g : Geometry Pose) (c : Config Pose) (J : Noises → Prop)
    (rel : List (Status Pose) → List (Status Pose) → Prop) (ok : (Nat → Draw Pose) → Prop)
    (step : ∀ n d f, J n → ok d → J (noise c d 0 n f).1 ∧ rel (noise c d 0 n f).2 f)
    (is : List (Input Pose)) (hok : ∀ i ∈ is, ok i.draws) :
    ∀ (s : Sensor Pose) (rec pub tru : List (Frame Pose)), J s.noises → Queue c.delay rel rec pub s.unpublished →
      Queue c.groundTruthDelay (· = ·) rec tru s.unpublishedTruth →
      J (run g c s is).1.noises ∧
      Queue c.delay rel (rec ++ recorded (run g c s is).2) (pub ++ objects (run g c s is).2) (run g c s is).1.unpublished ∧
      Queue c.groundTruthDelay (· = ·) (rec ++ recorded (run g c s is).2) (tru ++ truths (run g c s is).2)
        (run g c s is).1.unpublishedTruth := by
  induction is with
  | nil => intro s rec pub tru hj h1 h2; simpa [run, recorded, objects, truths] using ⟨hj, h1, h2⟩
  | cons i is ih =>
    intro s rec pub tru hj h1 h2
    simp only [run]
    cases hu : update g c s i with
    | mk s' o =>
    have ih' := ih (fun i hi => hok i (by simp [hi])) s'
    cases o with
    | skipped =>
      obtain ⟨a, b, d⟩ := update_skip hu (.inl rfl)
      exact ih' rec pub tru (by rw [d]; exact hj) (by rw [a]; exact h1) (by rw [b]; exact h2)
    | noEgo =>
      obtain ⟨a, b, d⟩ := update_skip hu (.inr rfl)
      exact ih' rec pub tru (by rw [d]; exact hj) (by rw [a]; exact h1) (by rw [b]; exact h2)
    | done f o t =>
      obtain ⟨ego, _, _, _, _, e2, e3, e4, e5⟩ := update_done hu
      have hT : Queue c.groundTruthDelay (· = ·) (rec ++ [(f, i.now)])
          (tru ++ truths [(i.now, (.done f o t : Out Pose))]) s'.unpublishedTruth := by
        rw [e3]
        cases hp : (pushPop c.groundTruthDelay i.now s.unpublishedTruth f).2 with
        | none => rw [e4, hp]; simpa [truths] using h2.push hp
        | some fr => rw [e4, hp]; simpa [truths] using h2.pushPop hp (o := fr.1) rfl
      rcases e5 with ⟨p1, p2, p3⟩ | ⟨fr, p1, p2, p3⟩
      · have := ih' (rec ++ [(f, i.now)]) pub (tru ++ truths [(i.now, (.done f o t : Out Pose))]) (by rw [p3]; exact hj)
          (by rw [e2]; exact h1.push p1) hT
        rw [show (i.now, Out.done f o t) :: (run g c s' is).2 = [(i.now, Out.done f o t)] ++ (run g c s' is).2 from rfl,
          recorded_append, objects_append, truths_append]
        subst p2
        simpa [recorded, objects, List.append_assoc] using this
      · obtain ⟨q1, q2⟩ := step s.noises i.draws fr.1 hj (hok i (by simp))
        have := ih' (rec ++ [(f, i.now)]) (pub ++ [((noise c i.draws 0 s.noises fr.1).2, i.now)])
          (tru ++ truths [(i.now, (.done f o t : Out Pose))]) (by rw [p3]; exact q1)
          (by rw [e2]; exact h1.pushPop p1 q2) hT
        rw [show (i.now, Out.done f o t) :: (run g c s' is).2 = [(i.now, Out.done f o t)] ++ (run g c s' is).2 from rfl,
          recorded_append, objects_append, truths_append]
        subst p2
        simpa [recorded, objects, List.append_assoc] using this

theorem queue_new (delay : Rat) (rel : List (Status Pose) → List (Status Pose) → Prop) : Queue delay rel ([] : List (Frame Pose)) [] [] :=
  ⟨rfl, Nat.le_refl _, by intro m o h; simp at h⟩

theorem noiseOne_name (c : Config Pose) (n : Noises) (d : Draw Pose) (s x : Status Pose)
    (h : (noiseOne c n d s).2 = some x) : x.name = s.name := by
  unfold noiseOne noise1 noise3 noise2 at h
  split at h
  · dsimp only at h; split at h <;> cases h; rfl
  · dsimp only at h; split at h <;> cases h; rfl
  · split at h
    · cases h
    · split at h
      · dsimp only at h; split at h <;> cases h; rfl
      · cases h; rfl
  · split at h
    · cases h
    · split at h
      · dsimp only at h; split at h <;> cases h; rfl
      · cases h; rfl

theorem noise_names (c : Config Pose) (d : Nat → Draw Pose) (k : Nat) (n : Noises) (f : List (Status Pose)) :
    ((noise c d k n f).2.map (·.name)).Sublist (f.map (·.name)) := by
  induction f generalizing k n with
  | nil => exact List.Sublist.slnil
  | cons s f ih =>
    unfold noise
    dsimp only
    cases h : (noiseOne c n (d k) s).2 with
    | none => exact (ih _ _).cons _
    | some x =>
      simp only [Option.toList_some, List.singleton_append, List.map_cons]
      rw [noiseOne_name c n (d k) s x h]
      exact (ih _ _).cons_cons _

end Verif.Detection
