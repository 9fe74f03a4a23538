import Verif.Detection.Lemmas
/-
C41 (delay of detections), C42 (which entities are detected), C52 (entities below the ego vehicle), C53
(configured autocorrelation).
-/
namespace Verif.Detection
variable {Pose : Type}

/-- A schedule used in the examples: flat ground, everything near; poses are heights. -/
def flat : Geometry Rat where
  near := fun a b => decide (a - b ≤ 300 ∧ b - a ≤ 300)
  notFarBelow := fun e ego => decide (ego - 1 ≤ e)
  changed := fun _ _ => false
  above := fun p e => decide (p ≤ e)

def calm : Draw Rat := { d := 1 / 2, phi := 0, rate := 1, perturb := id }

def still (now : Rat) : Input Rat :=
  { now := now, statuses := [⟨"ego", true, 0⟩, ⟨"npc", false, 0⟩], lidar := [], draws := fun _ => calm }

def plain (v : Version) : Config Rat :=
  { version := v, duration := 1 / 10, delay := 3 / 20, groundTruthDelay := 0, detectAll := true, missing := 0,
    config := fun _ => "" }

/-! ### C41 -/

/-- C41. Whatever the schedule, the entities, the noise and its random numbers:
the `m`-th message with objects is made from the `m`-th recorded frame and published when that frame is at
least `delay` old; the same holds of the ground truth, which is the recorded frame unchanged; and what has
not been published yet is still in the queue, in order. -/
theorem C41_delay_queue (g : Geometry Pose) (c : Config Pose) (t0 : Rat) (is : List (Input Pose)) :
    let s := (run g c (.new t0) is).1
    let l := (run g c (.new t0) is).2
    (∀ (m : Nat) (o : Frame Pose), (objects l)[m]? = some o → ∃ f : Frame Pose, (recorded l)[m]? = some f ∧ c.delay ≤ o.2 - f.2 ∧
      (o.1.map (·.name)).Sublist (f.1.map (·.name))) ∧
    (∀ (m : Nat) (o : Frame Pose), (truths l)[m]? = some o → ∃ f : Frame Pose, (recorded l)[m]? = some f ∧ c.groundTruthDelay ≤ o.2 - f.2 ∧ o.1 = f.1) ∧
    s.unpublished = (recorded l).drop (objects l).length ∧
    s.unpublishedTruth = (recorded l).drop (truths l).length := by
  intro s l
  obtain ⟨_, h1, h2⟩ := run_spec g c (fun _ => True) (fun a b => (a.map (·.name)).Sublist (b.map (·.name)))
    (fun _ => True) (fun n d f _ _ => ⟨trivial, noise_names c d 0 n f⟩) is (fun _ _ => trivial)
    (.new t0) [] [] [] trivial (queue_new _ _) (queue_new _ _)
  simp only [List.nil_append] at h1 h2
  exact ⟨h1.each, h2.each, h1.rest.symm, h2.rest.symm⟩

/-- C41, at most one message of each kind per update, and updates that do something are at least the
configured duration (less the tolerance of 2 ms) apart. -/
theorem C41_rate (g : Geometry Pose) (c : Config Pose) (s : Sensor Pose) (i : Input Pose) :
    (objects [(i.now, (update g c s i).2)]).length ≤ 1 ∧ (truths [(i.now, (update g c s i).2)]).length ≤ 1 ∧
    ((update g c s i).2 ≠ .skipped → c.duration - 1 / 500 ≤ i.now - s.previous ∧ (update g c s i).1.previous = i.now) ∧
    ((update g c s i).2 = .skipped → (update g c s i).1 = s) := by
  refine ⟨?_, ?_, ?_, ?_⟩
  · exact List.length_filterMap_le _ [(i.now, (update g c s i).2)]
  · exact List.length_filterMap_le _ [(i.now, (update g c s i).2)]
  · intro h
    unfold update at h ⊢
    split at h
    · next hc =>
      rw [if_pos hc]
      refine ⟨by grind, ?_⟩
      dsimp only
      split <;> rfl
    · exact absurd rfl h
  · intro h
    unfold update at h ⊢
    split at h
    · split at h <;> cases h
    · next hc => rw [if_neg hc]

/-- The sensor is updated at the times `a + k * step`, the first update and all following ones being due, and
the ego vehicle is always there. -/
def Periodic (c : Config Pose) (t0 a step : Rat) (input : Nat → Input Pose) : Prop :=
  (∀ k : Nat, (input k).now = a + k * step ∧ ∃ e ∈ (input k).statuses, e.attached = true) ∧
  c.duration - 1 / 500 ≤ a - t0 ∧ c.duration - 1 / 500 ≤ step

theorem update_accept (g : Geometry Pose) (c : Config Pose) (s : Sensor Pose) (i : Input Pose)
    (h : c.duration - 1 / 500 ≤ i.now - s.previous) (he : ∃ e ∈ i.statuses, e.attached = true) :
    ∃ s' f o t, update g c s i = (s', .done f o t) := by
  cases hu : update g c s i with
  | mk s' o =>
  cases o with
  | done f o t => exact ⟨s', f, o, t, rfl⟩
  | skipped =>
    exfalso
    unfold update at hu
    split at hu
    · split at hu <;> cases hu
    · next hn => apply hn; grind
  | noEgo =>
    exfalso
    unfold update at hu
    split at hu
    · split at hu
      · next hf =>
        obtain ⟨e, h1, h2⟩ := he
        have := List.find?_eq_none.mp hf e h1
        exact this h2
      · cases hu
    · cases hu

theorem periodic_step (delay a step : Rat) (m : Nat) (hm : delay ≤ m * step)
    (hleast : ∀ j : Nat, j < m → (j * step : Rat) < delay) (n : Nat) (R q : List (Frame Pose)) (f : List (Status Pose))
    (hR : R.map (·.2) = (List.range n).map (fun k : Nat => a + (k : Rat) * step)) (hq : q = R.drop (n - m)) :
    pushPop delay (a + n * step) q f =
      ((R ++ [(f, a + n * step)]).drop (n + 1 - m),
       if m ≤ n then (R ++ [(f, a + n * step)])[n - m]? else none) := by
  have hlen : R.length = n := by simpa using congrArg List.length hR
  generalize hR2 : R ++ [(f, a + (n : Rat) * step)] = R2
  have hl2 : R2.length = n + 1 := by rw [← hR2]; simp [hlen]
  have hdrop : q ++ [(f, a + (n : Rat) * step)] = R2.drop (n - m) := by
    rw [hq, ← hR2, List.drop_append_of_le_length (by omega)]
  have htime : ∀ k (h : k < R2.length), (R2[k]'h).2 = a + (k : Rat) * step := by
    intro k h
    have hmap : R2.map (·.2) = (List.range (n + 1)).map (fun k : Nat => a + (k : Rat) * step) := by
      rw [← hR2, List.map_append, hR, List.range_succ]; simp
    have := congrArg (fun l : List Rat => l[k]?) hmap
    simp only [List.getElem?_map, List.getElem?_eq_getElem h, Option.map_some] at this
    rw [List.getElem?_eq_getElem (by simp; omega)] at this
    simpa using this
  have hcons : R2.drop (n - m) = R2[n - m]'(by omega) :: R2.drop (n - m + 1) :=
    List.drop_eq_getElem_cons (by omega)
  obtain ⟨h, r, e, hc⟩ := pushPop_cases delay (a + n * step) q f
  rw [hdrop] at e
  have e' := e
  rw [hcons] at e'
  injection e' with ea eb
  have ht := htime (n - m) (by omega)
  rw [ea] at ht
  by_cases hnm : m ≤ n
  · have hcast : ((n - m : Nat) : Rat) = n - m := by
      have : ((n - m : Nat) : Rat) + (m : Rat) = (n : Rat) := by
        rw [← Rat.natCast_add]; congr 1; omega
      grind
    rcases hc with ⟨_, hp⟩ | ⟨hno, _⟩
    · rw [hp, show n + 1 - m = (n - m) + 1 by omega, eb, if_pos hnm, List.getElem?_eq_getElem (by omega), ea]
    · exfalso; apply hno; rw [ht, hcast]; grind
  · have hz : n - m = 0 := by omega
    rw [hz] at ht
    rcases hc with ⟨hyes, _⟩ | ⟨_, hp⟩
    · exfalso
      have := hleast n (by omega)
      rw [ht] at hyes
      grind
    · rw [hp, show n + 1 - m = n - m by omega, e, if_neg hnm]

/-- `m` is the least number of periods that is not shorter than the delay. -/
def Periods (step delay : Rat) (m : Nat) : Prop := delay ≤ m * step ∧ ∀ j : Nat, j < m → (j * step : Rat) < delay

theorem periodic_take (step a : Rat) (m n : Nat) (R : List (Frame Pose)) (f : List (Status Pose))
    (hR : R.map (·.2) = (List.range n).map (fun k : Nat => a + (k : Rat) * step)) :
    ((R ++ [(f, a + n * step)]).take (n + 1 - m)).map (fun f : Frame Pose => (f.1, f.2 + m * step)) =
      (R.take (n - m)).map (fun f : Frame Pose => (f.1, f.2 + m * step)) ++
        ((if m ≤ n then (R ++ [(f, a + n * step)])[n - m]? else none).map (fun f : Frame Pose => (f.1, a + n * step))).toList := by
  have hlen : R.length = n := by simpa using congrArg List.length hR
  by_cases hnm : m ≤ n
  · rw [show n + 1 - m = (n - m) + 1 by omega, List.take_add_one, List.map_append,
      List.take_append_of_le_length (by omega), if_pos hnm]
    have hcast : ((n - m : Nat) : Rat) = n - m := by
      have : ((n - m : Nat) : Rat) + (m : Rat) = (n : Rat) := by
        rw [← Rat.natCast_add]; congr 1; omega
      grind
    have hmap : (R ++ [(f, a + n * step)]).map (·.2) = (List.range (n + 1)).map (fun k : Nat => a + (k : Rat) * step) := by
      rw [List.map_append, hR, List.range_succ]; simp
    have hlt : n - m < (R ++ [(f, a + n * step)]).length := by simp; omega
    have := congrArg (fun l : List Rat => l[n - m]?) hmap
    simp only [List.getElem?_map] at this
    rw [List.getElem?_eq_getElem hlt, List.getElem?_eq_getElem (by simp; omega)] at this
    simp only [Option.map_some, List.getElem_range, Option.some.injEq] at this
    rw [List.getElem?_eq_getElem hlt]
    simp only [Option.toList_some, List.map_cons, List.map_nil, Option.map_some]
    rw [this, hcast]
    congr 3
    grind
  · rw [show n + 1 - m = 0 by omega, show n - m = 0 by omega, if_neg hnm]; rfl

/-- C41, the exact delay. If the sensor is updated with a constant period, then every frame is published
exactly as many periods after it was recorded as the configured delay makes necessary, and the frames not
older than that are still waiting. Both for the ground truth, with its delay, and for the objects. -/
theorem C41_exact (g : Geometry Pose) (c : Config Pose) (t0 a step : Rat) (input : Nat → Input Pose)
    (hper : Periodic c t0 a step input) (m mt : Nat) (hm : Periods step c.delay m)
    (hmt : Periods step c.groundTruthDelay mt) (n : Nat) :
    let l := (run g c (.new t0) ((List.range n).map input)).2
    (recorded l).map (·.2) = (List.range n).map (fun k : Nat => a + (k : Rat) * step) ∧
    truths l = ((recorded l).take (n - mt)).map (fun f => (f.1, f.2 + mt * step)) ∧
    (objects l).map (·.2) = ((recorded l).take (n - m)).map (fun f => f.2 + m * step) := by
  obtain ⟨hk, h0, hs⟩ := hper
  suffices H : let r := run g c (.new t0) ((List.range n).map input)
      (recorded r.2).map (·.2) = (List.range n).map (fun k : Nat => a + (k : Rat) * step) ∧
      truths r.2 = ((recorded r.2).take (n - mt)).map (fun f => (f.1, f.2 + mt * step)) ∧
      (objects r.2).map (·.2) = ((recorded r.2).take (n - m)).map (fun f => f.2 + m * step) ∧
      r.1.unpublishedTruth = (recorded r.2).drop (n - mt) ∧
      r.1.unpublished = (recorded r.2).drop (n - m) ∧
      c.duration - 1 / 500 ≤ (a + n * step) - r.1.previous from ⟨H.1, H.2.1, H.2.2.1⟩
  induction n with
  | zero => simp [run, recorded, truths, objects, Sensor.new]; grind
  | succ n ih =>
    dsimp only at ih ⊢
    rw [List.range_succ, List.map_append, run_append]
    obtain ⟨i1, i2, i2', i3, i3', i4⟩ := ih
    generalize hR : run g c (.new t0) ((List.range n).map input) = r at *
    obtain ⟨s, l⟩ := r
    dsimp only at *
    obtain ⟨s', f, o, t, hu⟩ := update_accept g c s (input n) (by rw [(hk n).1]; exact i4) (hk n).2
    obtain ⟨ego, _, _, _, e1, e2, e3, e4, e5⟩ := update_done hu
    simp only [List.map_cons, List.map_nil, run, hu]
    rw [recorded_append, truths_append, objects_append]
    have hrec : recorded [((input n).now, (Out.done f o t : Out Pose))] = [(f, a + n * step)] := by
      simp [recorded, (hk n).1]
    rw [hrec, e3, e2]
    rw [(hk n).1] at e4 e5 ⊢
    have pT := periodic_step c.groundTruthDelay a step mt hmt.1 hmt.2 n (recorded l) s.unpublishedTruth f i1 i3
    have pO := periodic_step c.delay a step m hm.1 hm.2 n (recorded l) s.unpublished f i1 i3'
    have qT := periodic_take step a mt n (recorded l) f i1
    have qO := periodic_take step a m n (recorded l) f i1
    refine ⟨?_, ?_, ?_, by rw [pT], by rw [pO], ?_⟩
    · rw [List.map_append, i1, List.map_append]; rfl
    · rw [qT, i2, e4, pT]
      dsimp only
      generalize (if mt ≤ n then (recorded l ++ [(f, a + (n : Rat) * step)])[n - mt]? else none) = z
      cases z <;> rfl
    · have qO := congrArg (List.map (fun x : Frame Pose => x.2)) qO
      simp only [List.map_map, List.map_append] at qO
      rw [List.map_append, i2']
      refine Eq.trans ?_ qO.symm
      congr 1
      rw [pO] at e5
      dsimp only at e5
      generalize (if m ≤ n then (recorded l ++ [(f, a + (n : Rat) * step)])[n - m]? else none) = z at e5 ⊢
      rcases e5 with ⟨p1, p2, _⟩ | ⟨fr, p1, p2, _⟩
      · subst p1; subst p2; rfl
      · subst p1; subst p2; rfl
    · rw [e1, (hk n).1, Rat.natCast_add]
      grind

example : Periods (1 / 10) (plain .v1).delay 2 ∧ Periods (1 / 10) (plain .v1).groundTruthDelay 0 :=
  ⟨⟨by decide +kernel, by decide +kernel⟩, by decide +kernel, fun j h => by omega⟩

/-- A sensor with the period 0.1 s and the delay 0.15 s: the least number of periods is two. -/
example : Periodic (plain .v1) 0 (1 / 10) (1 / 10) (fun k => still (1 / 10 + k * (1 / 10))) :=
  ⟨fun k => ⟨rfl, ⟨"ego", true, 0⟩, by simp [still], rfl⟩, by decide +kernel, by decide +kernel⟩

/-- Four updates: the object is recorded four times and published in the third and fourth update. -/
example : (objects (run flat (plain .v1) (.new 0) [still (1/10), still (2/10), still (3/10), still (4/10)]).2).map
      (fun f => (f.1.map (·.name), f.2)) = [(["npc"], 3/10), (["npc"], 4/10)] := by
  decide +kernel

/-! ### C42 -/

/-- C42, first half. Whatever the state of the sensor and the noise: what an update records are entities other
than the ego vehicle, within range of it, and seen by the lidar unless all objects are to be detected; every
object published is, by its name, one of the recorded ones (`C41_delay_queue`). -/
theorem C42_only_in_range (g : Geometry Pose) (c : Config Pose) (s s' : Sensor Pose) (i : Input Pose)
    (f : List (Status Pose)) (o t : Option (List (Status Pose))) (h : update g c s i = (s', .done f o t)) :
    f.Sublist i.statuses ∧
    ∃ ego ∈ i.statuses, ego.attached = true ∧
      ∀ x ∈ f, x.attached = false ∧ g.near x.pose ego.pose = true ∧ (c.detectAll = true ∨ x.name ∈ i.lidar) := by
  obtain ⟨ego, h1, h2, rfl, _⟩ := update_done h
  exact ⟨select_sublist .., ego, h1, h2, fun x hx => select_mem _ _ _ _ _ _ x hx⟩

/-- C42: and if no entity is more than a metre below the ego vehicle, it is exactly those entities. -/
theorem C42_all_in_range (g : Geometry Pose) (c : Config Pose) (s s' : Sensor Pose) (i : Input Pose)
    (f : List (Status Pose)) (o t : Option (List (Status Pose))) (h : update g c s i = (s', .done f o t))
    (hb : ∀ e ∈ i.statuses, ∀ x ∈ i.statuses, e.attached = true → g.notFarBelow x.pose e.pose = true) :
    ∃ ego ∈ i.statuses, ego.attached = true ∧
      ∀ x, x ∈ f ↔ x ∈ i.statuses ∧ x.attached = false ∧ g.near x.pose ego.pose = true ∧
        (c.detectAll = true ∨ x.name ∈ i.lidar) := by
  obtain ⟨ego, h1, h2, rfl, _⟩ := update_done h
  refine ⟨ego, h1, h2, fun x => ?_⟩
  rw [select_filter g _ _ _ _ _ (fun x hx => hb ego h1 x hx h2), List.mem_filter]
  simp [and_assoc]

/-- The noise cannot make an entity disappear: random numbers are in [0, 1), the rate of true positives is one,
coefficients are in [0, 1], and the probability of losing an entity is not positive. -/
def Harmless (d : Nat → Draw Pose) : Prop :=
  ∀ k, 0 ≤ (d k).d ∧ (d k).d < 1 ∧ (d k).rate = 1 ∧ 0 ≤ (d k).phi ∧ (d k).phi ≤ 1

theorem noise_complete (c : Config Pose) (hv : (c.version = .v1 ∧ c.missing ≤ 0) ∨ c.version = .v2) (n : Noises)
    (d : Nat → Draw Pose) (k : Nat) (f : List (Status Pose)) (hJ : ∀ e ∈ n, e.2.truePositive = true) (hd : Harmless d) :
    (∀ e ∈ (noise c d k n f).1, e.2.truePositive = true) ∧ (noise c d k n f).2.map (·.name) = f.map (·.name) := by
  induction f generalizing k n with
  | nil => exact ⟨hJ, rfl⟩
  | cons s f ih =>
    unfold noise
    dsimp only
    obtain ⟨d1, d2, d3, d4, d5⟩ := hd k
    rcases hv with ⟨hv, hm⟩ | hv
    · have : noiseOne c n (d k) s = (n, some { s with pose := (d k).perturb s.pose }) := by
        simp only [noiseOne, hv, noise1]
        rw [if_neg (by grind)]
      rw [this]
      have := ih n (k + 1) hJ
      exact ⟨this.1, by simp [this.2]⟩
    · have hf : ((n.find s.name).getD { truePositive := true, config := "" }).truePositive = true := by
        unfold Noises.find
        cases hx : List.find? (fun e => decide (e.1 = s.name)) n with
        | none => rfl
        | some e => exact hJ e (List.mem_of_find?_eq_some hx)
      have hmk : markov ((n.find s.name).getD { truePositive := true, config := "" }).truePositive (d k).rate (d k).phi (d k).d = true := by
        rw [hf, d3]; simp only [markov, decide_eq_true_eq]; grind
      simp only [noiseOne, hv, noise2]
      rw [hmk]
      have := ih (Noises.set n s.name { (n.find s.name).getD { truePositive := true, config := "" } with truePositive := true }) (k + 1) (by
        intro e he
        unfold Noises.set at he
        rcases List.mem_cons.mp he with rfl | he
        · rfl
        · exact hJ e (List.mem_filter.mp he).1)
      exact ⟨this.1, by simp [this.2]⟩

/-- C42, second half, for the noise models 1 and 2: without configured losses the objects of the `m`-th message
are all entities of the `m`-th recorded frame, from the first frame on. Missing: the models 3 and 4. -/
theorem C42_all_published_partial (g : Geometry Pose) (c : Config Pose)
    (hv : (c.version = .v1 ∧ c.missing ≤ 0) ∨ c.version = .v2) (t0 : Rat) (is : List (Input Pose))
    (hd : ∀ i ∈ is, Harmless i.draws) :
    let l := (run g c (.new t0) is).2
    ∀ (m : Nat) (o : Frame Pose), (objects l)[m]? = some o → ∃ f : Frame Pose, (recorded l)[m]? = some f ∧ o.1.map (·.name) = f.1.map (·.name) := by
  intro l m o ho
  obtain ⟨_, h1, _⟩ := run_spec g c (fun n => ∀ e ∈ n, e.2.truePositive = true)
    (fun a b => a.map (·.name) = b.map (·.name)) Harmless
    (fun n d f hj hd => noise_complete c hv n d 0 f hj hd) is hd (.new t0) [] [] []
    (by intro e he; cases he) (queue_new _ _) (queue_new _ _)
  simp only [List.nil_append] at h1
  obtain ⟨f, a, _, b⟩ := h1.each m o ho
  exact ⟨f, a, b⟩

example : Harmless (still 0).draws := fun _ => (by decide +kernel : 0 ≤ calm.d ∧ calm.d < 1 ∧ calm.rate = 1 ∧ 0 ≤ calm.phi ∧ calm.phi ≤ 1)

/-- C42 for the models 3 and 4: an entity without a matching noise configuration is published in every frame
in which it was known before, unchanged. -/
theorem C42_known_published_partial (c : Config Pose) (hv : c.version = .v3 ∨ c.version = .v4) (n : Noises)
    (d : Nat → Draw Pose) (k : Nat) (f : List (Status Pose)) (hn : (f.map (·.name)).Nodup)
    (x : Status Pose) (hx : x ∈ f) (out : NoiseOutput) (hk : n.find x.name = some out) (hc : out.config = "") :
    x ∈ (noise c d k n f).2 := by
  induction f generalizing k n with
  | nil => cases hx
  | cons s f ih =>
    unfold noise
    dsimp only
    have h3 : noiseOne c n (d k) s = noise3 c.config n (d k) s := by
      rcases hv with hv | hv <;> simp only [noiseOne, hv]
    rw [h3]
    simp only [List.map_cons, List.nodup_cons] at hn
    rcases List.mem_cons.mp hx with rfl | hx
    · simp [noise3, hk, hc]
    · have hne : s.name ≠ x.name := fun e => hn.1 (e ▸ List.mem_map_of_mem hx)
      apply List.mem_append_right
      apply ih _ _ hn.2 hx
      have hset : ∀ o, (Noises.set n s.name o).find x.name = n.find x.name := by
        intro o
        unfold Noises.set Noises.find
        rw [List.find?_cons_of_neg (by simpa using hne), List.find?_filter]
        congr 1
        congr 1
        funext e
        by_cases he : e.1 = x.name
        · simp [he, Ne.symm hne]
        · simp [he]
      unfold noise3
      split
      · rw [hset]; exact hk
      · split
        · simp only [noise2]; rw [hset]; exact hk
        · exact hk

/-- C42 is false for the models 3 and 4: an entity in range and without any noise is not in the first
message although it is in the recorded frame; it appears from the second on. -/
theorem C42_first_frame_violated :
    (objects (run flat { plain .v3 with delay := 0 } (.new 0) [still (1/10), still (2/10)]).2).map (fun f => f.1.map (·.name)) =
      [[], ["npc"]] ∧
    (recorded (run flat { plain .v3 with delay := 0 } (.new 0) [still (1/10), still (2/10)]).2).map (fun f => f.1.map (·.name)) =
      [["npc"], ["npc"]] := by
  decide +kernel

/-! ### C52 -/

/-- An entity is to be detected if it is near and either not far below the ego vehicle or above the plane
through the *current* pose of the ego vehicle. -/
def Visible (g : Geometry Pose) (ego : Pose) (x : Status Pose) : Prop :=
  x.attached = false ∧ g.near x.pose ego = true ∧ (g.notFarBelow x.pose ego = true ∨ g.above ego x.pose = true)

theorem select_fresh (g : Geometry Pose) (lidar : List String) (ego : Pose) (hself : g.changed ego ego = false)
    (l : List (Status Pose)) : ∀ (plane : Option Pose), (∀ q, plane = some q → q ≠ ego → g.changed ego q = true) →
      ∀ x, x ∈ (select g true lidar ego plane l).1 ↔ x ∈ l ∧ Visible g ego x := by
  induction l with
  | nil => intro plane _ x; simp [select]
  | cons s l ih =>
    intro plane hp x
    have hplane : ∀ q, (onOrAbove g plane s.pose ego).2 = some q → q ≠ ego → g.changed ego q = true := by
      intro q hq hne
      unfold onOrAbove at hq
      split at hq
      · exact hp q hq hne
      · cases plane with
        | none => exact absurd (Option.some.inj hq).symm hne
        | some q' =>
          dsimp only at hq
          split at hq
          · exact absurd (Option.some.inj hq).symm hne
          · rw [← Option.some.inj hq]; exact hp q' rfl (by rw [Option.some.inj hq]; exact hne)
    have habove : (onOrAbove g plane s.pose ego).1 = (g.notFarBelow s.pose ego || g.above ego s.pose) := by
      unfold onOrAbove
      split
      · next h => simp [h]
      · next h =>
        have h : g.notFarBelow s.pose ego = false := by simpa using h
        rw [h, Bool.false_or]
        cases plane with
        | none => rfl
        | some q =>
          dsimp only
          by_cases hq : q = ego
          · rw [hq, hself]; rfl
          · rw [hp q rfl hq]; rfl
    have hplane2 : ∀ q, (inRange g true lidar ego plane s).2 = some q → q ≠ ego → g.changed ego q = true := by
      intro q hq
      unfold inRange at hq
      split at hq
      · exact hp q hq
      · split at hq
        · exact hp q hq
        · exact hplane q hq
    have hin : (inRange g true lidar ego plane s).1 = true ↔ Visible g ego s := by
      unfold inRange Visible
      cases s.attached <;> cases g.near s.pose ego <;> simp [habove]
    unfold select
    dsimp only
    have := ih _ hplane2 x
    split
    · next h =>
      have hv := hin.mp h
      simp only [List.mem_cons, this]
      constructor
      · rintro (rfl | ⟨a, b⟩)
        · exact ⟨.inl rfl, hv⟩
        · exact ⟨.inr a, b⟩
      · rintro ⟨rfl | a, b⟩
        · exact .inl rfl
        · exact .inr ⟨a, b⟩
    · next h =>
      simp only [List.mem_cons, this]
      constructor
      · rintro ⟨a, b⟩; exact ⟨.inr a, b⟩
      · rintro ⟨rfl | a, b⟩
        · exact absurd (hin.mpr b) h
        · exact ⟨a, b⟩

/-- C52, as long as the remembered plane is of no use: none was made yet, or the orientation of the ego vehicle
differs from the one it was made for. Then exactly the entities that are to be detected are recorded.
Missing: any other update. -/
theorem C52_plane_partial (g : Geometry Pose) (c : Config Pose) (s s' : Sensor Pose) (i : Input Pose)
    (f : List (Status Pose)) (o t : Option (List (Status Pose))) (h : update g c s i = (s', .done f o t))
    (hall : c.detectAll = true) (hself : ∀ p, g.changed p p = false)
    (hfresh : ∀ q, s.plane = some q → ∀ e ∈ i.statuses, e.attached = true → g.changed e.pose q = true) :
    ∃ ego ∈ i.statuses, ego.attached = true ∧ ∀ x, x ∈ f ↔ x ∈ i.statuses ∧ Visible g ego.pose x := by
  obtain ⟨ego, h1, h2, rfl, _⟩ := update_done h
  refine ⟨ego, h1, h2, fun x => ?_⟩
  rw [hall]
  exact select_fresh g i.lidar ego.pose (hself _) i.statuses s.plane (fun q hq _ => hfresh q hq ego h1 h2) x

example : (∀ q, (Sensor.new 0 : Sensor Rat).plane = some q → ∀ e ∈ (still 1).statuses, e.attached = true → flat.changed e.pose q = true) :=
  fun _ h => by cases h

def below (now ego npc : Rat) : Input Rat :=
  { now := now, statuses := [⟨"ego", true, ego⟩, ⟨"npc", false, npc⟩], lidar := [], draws := fun _ => calm }

/-- C52 is false: the ego vehicle is at the height 10 when the plane is made; without turning it then is at the
height 20, and the entity at the height 12, eight metres below it and below its plane, is detected. -/
theorem C52_violated :
    (recorded (run flat (plain .v1) (.new 0) [below (1/10) 10 3, below (2/10) 20 12]).2).map (fun f => f.1.map (·.name)) =
      [[], ["npc"]] ∧
    ¬ Visible flat 20 ⟨"npc", false, 12⟩ := by
  refine ⟨by decide +kernel, ?_⟩
  rintro ⟨_, _, h | h⟩
  · exact absurd h (by decide +kernel)
  · exact absurd h (by decide +kernel)

/-! ### C53 -/

/-- The key under which the coefficients are documented and configured,
test_runner/scenario_test_runner/config/parameters.yaml 296-330: `<kind>.autocorrelation_coefficient.amplitude`. -/
def key (base kind item : String) : String := base ++ kind ++ ".autocorrelation_coefficient." ++ item

/-- C53 is false: whatever is configured, the coefficient used does not depend on the configured amplitude,
decay and offset (two configurations that agree on all other keys give the same coefficient). -/
theorem C53_violated (exp : Rat → Rat) (base kind : String) (interval : Rat) (p q : Parameters)
    (h : ∀ k, (∀ item, k ≠ key base kind item) → p k = q k) :
    coefficient exp p (path base kind) interval = coefficient exp q (path base kind) interval := by
  have hne : ∀ item' item, base ++ kind ++ ("autocorrelation_coefficient." ++ item') ≠ key base kind item := by
    intro item' item e
    have e := congrArg String.toList e
    simp only [key, String.toList_append, List.append_assoc] at e
    have e := List.append_cancel_left (List.append_cancel_left e)
    have h1 : "autocorrelation_coefficient.".toList = 'a' :: "utocorrelation_coefficient.".toList := by decide
    have h2 : ".autocorrelation_coefficient.".toList = '.' :: "autocorrelation_coefficient.".toList := by decide
    rw [h1, h2] at e
    injection e with e _
    exact absurd e (by decide)
  have ha : p (base ++ kind ++ "autocorrelation_coefficient.amplitude") = q (base ++ kind ++ "autocorrelation_coefficient.amplitude") :=
    h _ (fun item => hne "amplitude" item)
  have hd : p (base ++ kind ++ "autocorrelation_coefficient.decay") = q (base ++ kind ++ "autocorrelation_coefficient.decay") :=
    h _ (fun item => hne "decay" item)
  have ho : p (base ++ kind ++ "autocorrelation_coefficient.offset") = q (base ++ kind ++ "autocorrelation_coefficient.offset") :=
    h _ (fun item => hne "offset" item)
  unfold coefficient path
  rw [ha, hd, ho]

/-- With nothing but the documented keys set, the coefficient is zero. -/
theorem C53_zero_violated (exp : Rat → Rat) (base kind : String) (interval : Rat) (p : Parameters)
    (h : ∀ k, (∀ item, k ≠ key base kind item) → p k = none) :
    coefficient exp p (path base kind) interval = 0 := by
  rw [C53_violated exp base kind interval p (fun _ => none) (fun k hk => h k hk)]
  simp only [coefficient, Option.getD_none]
  have : (0 : Rat) * exp (-0 * interval) + 0 = 0 := by grind
  rw [this]
  decide +kernel

/-- The coefficient that is used is always between zero and one. -/
theorem C53_range_partial (exp : Rat → Rat) (p : Parameters) (pth : String) (interval : Rat) :
    0 ≤ coefficient exp p pth interval ∧ coefficient exp p pth interval ≤ 1 := by
  unfold coefficient
  dsimp only
  split
  · decide +kernel
  · split <;> grind

/-! ### C68 -/

/-- What is remembered about an entity: whether it was detected last time; a new one counts as detected. -/
def remembered (n : Noises) (name : String) : Bool := ((n.find name).map (·.truePositive)).getD true

/-- The rule: an entity is detected if its random number is below the configured rate, weighted with the coefficient of
autocorrelation against what was the case last time. -/
def Detected (before : Bool) (w : Draw Pose) : Prop :=
  w.d < (if before then w.phi else 0) + (1 - w.phi) * w.rate

theorem find_set_self (n : Noises) (name : String) (o : NoiseOutput) : (n.set name o).find name = some o := by
  simp [Noises.set, Noises.find]

theorem find_set_other (n : Noises) (a b : String) (o : NoiseOutput) (h : a ≠ b) : (n.set a o).find b = n.find b := by
  unfold Noises.set Noises.find
  rw [List.find?_cons_of_neg (by simpa using h), List.find?_filter]
  congr 1
  congr 1
  funext e
  by_cases he : e.1 = b
  · simp [he, Ne.symm h]
  · simp [he]

theorem noise_cons (c : Config Pose) (hv : c.version = .v2) (d : Nat → Draw Pose) (k : Nat) (n : Noises) (s : Status Pose)
    (f : List (Status Pose)) : noise c d k n (s :: f) =
      ((noise c d (k + 1) (noise2 n (d k) s).1 f).1, (noise2 n (d k) s).2.toList ++ (noise c d (k + 1) (noise2 n (d k) s).1 f).2) := by
  simp only [noise, noiseOne, hv]

theorem noise2_self (n : Noises) (w : Draw Pose) (s : Status Pose) :
    (remembered (noise2 n w s).1 s.name = true ↔ Detected (remembered n s.name) w) ∧
    (s.name ∈ (noise2 n w s).2.toList.map (·.name) ↔ Detected (remembered n s.name) w) := by
  have hr : ((n.find s.name).getD { truePositive := true, config := "" }).truePositive = remembered n s.name := by
    unfold remembered
    cases n.find s.name <;> rfl
  have hm : markov (remembered n s.name) w.rate w.phi w.d = true ↔ Detected (remembered n s.name) w := by
    unfold markov Detected
    rw [decide_eq_true_eq]
    cases remembered n s.name
    · simp only [Bool.false_eq_true, if_false]
      have : (0 : Rat) * w.phi = 0 := by grind
      rw [this]
    · simp only [if_true]
      have : (1 : Rat) * w.phi = w.phi := by grind
      rw [this]
  rw [← hm]
  simp only [noise2]
  rw [hr]
  constructor
  · unfold remembered
    rw [find_set_self]
    rfl
  · cases markov (remembered n s.name) w.rate w.phi w.d <;> simp

theorem noise2_other (n : Noises) (w : Draw Pose) (s : Status Pose) (name : String) (h : s.name ≠ name) :
    remembered (noise2 n w s).1 name = remembered n name ∧ name ∉ (noise2 n w s).2.toList.map (·.name) := by
  simp only [noise2]
  refine ⟨by unfold remembered; rw [find_set_other _ _ _ _ h], ?_⟩
  split
  · simpa using Ne.symm h
  · simp

theorem noise2_find (c : Config Pose) (hv : c.version = .v2) (d : Nat → Draw Pose) (f : List (Status Pose)) :
    ∀ (k : Nat) (n : Noises) (name : String), name ∉ f.map (·.name) → remembered (noise c d k n f).1 name = remembered n name ∧
      name ∉ (noise c d k n f).2.map (·.name) := by
  induction f with
  | nil => intro k n name _; exact ⟨rfl, by simp [noise]⟩
  | cons s f ih =>
    intro k n name h
    simp only [List.map_cons, List.mem_cons, not_or] at h
    rw [noise_cons c hv]
    obtain ⟨h1, h2⟩ := ih (k + 1) (noise2 n (d k) s).1 name h.2
    obtain ⟨h3, h4⟩ := noise2_other n (d k) s name (Ne.symm h.1)
    exact ⟨by rw [h1, h3], by rw [List.map_append, List.mem_append]; exact fun h => h.elim h4 h2⟩

theorem noise2_spec (c : Config Pose) (hv : c.version = .v2) (d : Nat → Draw Pose) (f : List (Status Pose)) :
    ∀ (k : Nat) (n : Noises), (f.map (·.name)).Nodup → ∀ (j : Nat) (x : Status Pose), f[j]? = some x →
      (remembered (noise c d k n f).1 x.name = true ↔ Detected (remembered n x.name) (d (k + j))) ∧
      (x.name ∈ (noise c d k n f).2.map (·.name) ↔ Detected (remembered n x.name) (d (k + j))) := by
  induction f with
  | nil => intro k n _ j x h; simp at h
  | cons s f ih =>
    intro k n hn j x h
    simp only [List.map_cons, List.nodup_cons] at hn
    rw [noise_cons c hv, List.map_append, List.mem_append]
    cases j with
    | zero =>
      simp only [List.getElem?_cons_zero, Option.some.injEq] at h
      subst h
      obtain ⟨h1, h2⟩ := noise2_find c hv d f (k + 1) (noise2 n (d k) s).1 s.name hn.1
      obtain ⟨h3, h4⟩ := noise2_self n (d k) s
      simp only [h2, or_false, Nat.add_zero]
      exact ⟨by rw [h1, h3], h4⟩
    | succ j =>
      simp only [List.getElem?_cons_succ] at h
      have hx : x.name ∈ f.map (·.name) := List.mem_map_of_mem (List.mem_of_getElem? h)
      have hne : s.name ≠ x.name := fun e => hn.1 (e ▸ hx)
      obtain ⟨h1, h2⟩ := ih (k + 1) (noise2 n (d k) s).1 hn.2 j x h
      obtain ⟨h3, h4⟩ := noise2_other n (d k) s x.name hne
      have e : k + 1 + j = k + (j + 1) := by omega
      rw [h3, e] at h1 h2
      exact ⟨h1, by rw [← h2]; exact ⟨fun h => h.elim (fun h => absurd h h4) id, .inr⟩⟩

/-- C68, for the noise model 2. When an update publishes a message, made from the oldest frame `f` not published yet, the
`j`-th entity of that frame is in the message exactly if the rule says it is detected, and that is what is remembered for
the next message; what is remembered of all other entities does not change. Missing: the other models. -/
theorem C68_detection_process_partial (g : Geometry Pose) (c : Config Pose) (hv : c.version = .v2) (s s' : Sensor Pose) (i : Input Pose)
    (rec o : List (Status Pose)) (t : Option (List (Status Pose))) (h : update g c s i = (s', .done rec (some o) t))
    (f : Frame Pose) (hf : (s.unpublished ++ [(rec, i.now)]).head? = some f) (hn : (f.1.map (·.name)).Nodup) :
    (∀ (j : Nat) (x : Status Pose), f.1[j]? = some x →
      (x.name ∈ o.map (·.name) ↔ Detected (remembered s.noises x.name) (i.draws j)) ∧
      (remembered s'.noises x.name = true ↔ x.name ∈ o.map (·.name))) ∧
    (∀ name, name ∉ f.1.map (·.name) → remembered s'.noises name = remembered s.noises name) := by
  obtain ⟨ego, _, _, _, _, _, _, _, hx⟩ := update_done h
  rcases hx with ⟨_, h1, _⟩ | ⟨fr, h1, h2, h3⟩
  · cases h1
  · obtain ⟨hd, tl, e1, e2 | e2⟩ := pushPop_cases c.delay i.now s.unpublished rec
    · rw [e2.2] at h1
      cases h1
      rw [e1] at hf
      simp only [List.head?_cons, Option.some.injEq] at hf
      cases h2
      rw [h3]
      refine ⟨fun j x hj => ?_, fun name hname => ?_⟩
      · rw [← hf] at hj hn
        have := noise2_spec c hv i.draws fr.1 0 s.noises hn j x hj
        rw [Nat.zero_add] at this
        exact ⟨this.2, by rw [this.1, this.2]⟩
      · rw [← hf] at hname
        exact (noise2_find c hv i.draws fr.1 0 s.noises name hname).1
    · rw [e2.2] at h1; cases h1

/-- What the rule means at its ends: without correlation the rate is the probability of a detection; with full correlation
nothing ever changes. Random numbers are in [0, 1). -/
theorem C68_ends (before : Bool) (w : Draw Pose) (h0 : 0 ≤ w.d) (h1 : w.d < 1) :
    (w.phi = 0 → (Detected before w ↔ w.d < w.rate)) ∧ (w.phi = 1 → (Detected before w ↔ before = true)) := by
  unfold Detected
  constructor
  · intro h; rw [h]; cases before <;> simp only [Bool.false_eq_true, if_false, if_true] <;> constructor <;> intro h <;> grind
  · intro h; rw [h]; cases before <;> simp <;> grind

example : ¬ Detected true ({ d := 1/2, phi := 0, rate := 1/4, perturb := id } : Draw Rat) ∧
    Detected true ({ d := 1/2, phi := 1/2, rate := 1/4, perturb := id } : Draw Rat) := by
  unfold Detected; decide +kernel

end Verif.Detection
