import Verif.RandomTest.SearchTheorems
/-
C164: a random test is one that was asked for.  C166: tests can be repeated.
-/
namespace Verif.RandomTest
variable {K : Type} [Field K] [LinearOrder K] {σ : Type}

/-! ### Helpers -/

theorem bind_ok {α β : Type} {x : Except Fault α} {f : α → Except Fault β} {b : β} (h : (x >>= f) = .ok b) :
    ∃ a, x = .ok a ∧ f a = .ok b := by
  cases x with
  | error e => simp [bind, Except.bind] at h
  | ok a => exact ⟨a, rfl, h⟩

variable [IsStrictOrderedRing K]

theorem uniform_bounds (e : Engine K σ) (he : e.Lawful) (lo hi : K) (h : lo ≤ hi) (g : σ) :
    lo ≤ (uniform e lo hi g).1 ∧ (uniform e lo hi g).1 ≤ hi := by
  obtain ⟨h1, h2⟩ := he.unit g
  unfold uniform
  have h3 : 0 ≤ (e.unit g).1 * (hi - lo) := mul_nonneg h1 (by linarith)
  have h4 : (e.unit g).1 * (hi - lo) ≤ 1 * (hi - lo) := mul_le_mul_of_nonneg_right h2.le (by linarith)
  exact ⟨by simp only; linarith, by simp only; linarith⟩

theorem randomPosition_ok (m : Map K) (hm : ∀ i, 0 ≤ m.length i) (e : Engine K σ) (he : e.Lawful) (g : σ)
    (r : Pose K × σ) (h : randomPosition m e g = .ok r) : OnMap m r.1 := by
  unfold randomPosition at h
  split at h
  · simp at h
  · rename_i id hid
    simp only [Except.ok.injEq] at h
    subst h
    obtain ⟨h1, h2⟩ := uniform_bounds e he 0 1 zero_le_one (e.index g m.ids.length).2
    refine ⟨List.mem_of_getElem? hid, mul_nonneg (hm id) h1, ?_⟩
    simpa using mul_le_mul_of_nonneg_left h2 (hm id)

theorem part_le (m : Map K) (i : Item K) (hi : i.lo ≤ i.hi) (hl : 0 ≤ i.lo) (r : Part K) (h : i.part m = some r)
    (hs : i.direction = .backward → 0 ≤ i.s) : r.start ≤ r.stop := by
  obtain ⟨id, lo, hi, dir, s⟩ := i
  cases dir with
  | forward =>
    simp only [Item.part] at h
    split at h
    · simp only [Option.some.injEq] at h
      subst h
      simp only at *
      split <;> linarith
    · simp at h
  | backward =>
    simp only [Item.part] at h
    split at h
    · simp only [Option.some.injEq] at h
      subst h
      simp only at *
      split <;> linarith
    · simp at h

theorem next_ordered (m : Map K) (i c : Item K) (h : i.lo ≤ i.hi) (hc : c ∈ i.next m) : c.lo ≤ c.hi ∧ 0 ≤ c.lo := by
  obtain ⟨id, lo, hi, dir, s⟩ := i
  cases dir with
  | forward =>
    simp only [Item.next] at hc
    split at hc
    · obtain ⟨j, -, rfl⟩ := List.mem_map.mp hc
      exact ⟨max_le_max le_rfl (by simpa using h), le_max_left _ _⟩
    · simp at hc
  | backward =>
    simp only [Item.next] at hc
    split at hc
    · obtain ⟨j, -, rfl⟩ := List.mem_map.mp hc
      exact ⟨max_le_max le_rfl (by simpa using h), le_max_left _ _⟩
    · simp at hc

theorem search_ordered (m : Map K) (hm : ∀ i, 0 ≤ m.length i) : ∀ (fuel : Nat) (queue : List (Item K)) (found parts : List (Part K)),
    (∀ i ∈ queue, i.Fits m ∧ i.lo ≤ i.hi ∧ 0 ≤ i.lo) → (∀ r ∈ found, r.start ≤ r.stop) →
    search m fuel queue found = .ok parts → ∀ r ∈ parts, r.start ≤ r.stop
  | _, [], found, parts, _, hf, h => by
    have h : found = parts := by simpa [search] using h
    exact h ▸ hf
  | 0, _ :: _, _, _, _, _, h => by simp [search] at h
  | fuel + 1, i :: queue, found, parts, hq, hf, h => by
    obtain ⟨a, b, c⟩ := hq i List.mem_cons_self
    refine search_ordered m hm fuel _ _ parts ?_ ?_ h
    · intro d hd
      rcases List.mem_append.mp hd with hd | hd
      · exact hq d (List.mem_cons_of_mem _ hd)
      · exact ⟨(next_fits m hm i d hd).1, next_ordered m i d b hd⟩
    · intro r hr
      rcases (mem_found m i found r).mp hr with hr | hr
      · exact part_le m i b c r hr (fun _ => a.1)
      · exact hf r hr

theorem lanesWithin_ordered (m : Map K) (hm : ∀ i, 0 ≤ m.length i) (fuel : Nat) (p : Pose K) (lo hi : K)
    (hlo : 0 ≤ lo) (hp : Fits m p) (parts : List (Part K)) (h : lanesWithin m fuel p lo hi = .ok parts) :
    ∀ r ∈ parts, r.start ≤ r.stop := by
  obtain ⟨hle, -, h⟩ := lanesWithin_ok m fuel p lo hi parts h
  refine search_ordered m hm fuel _ [] parts ?_ (by simp) h
  intro i hi'
  obtain ⟨o, ho, hi'⟩ := List.mem_flatMap.mp hi'
  rw [mem_origins] at ho
  rcases (mem_both lo hi o i).mp hi' with rfl | rfl <;> exact ⟨hp o ho, not_lt.mp hle, hlo⟩

theorem poseFrom_ok (e : Engine K σ) (he : e.Lawful) (parts : List (Part K)) (hp : ∀ r ∈ parts, r.start ≤ r.stop)
    (g : σ) (q : Pose K × σ) (h : poseFrom e parts g = .ok q) : ∃ r ∈ parts, r.Has q.1 := by
  unfold poseFrom at h
  split at h
  · simp at h
  · split at h
    · simp at h
    · rename_i part hpart
      have hmem := List.mem_of_getElem? hpart
      have hle := hp part hmem
      simp only [Except.ok.injEq] at h
      subst h
      obtain ⟨h1, h2⟩ := uniform_bounds e he 0 1 zero_le_one (e.index g parts.length).2
      refine ⟨part, hmem, rfl, ?_, ?_⟩
      · have := mul_nonneg (sub_nonneg.mpr hle) h1
        simp only
        linarith
      · have := mul_le_mul_of_nonneg_left h2 (sub_nonneg.mpr hle)
        simp only
        linarith

theorem near_of_lanes (m : Map K) (hm : ∀ i, 0 ≤ m.length i) (e : Engine K σ) (he : e.Lawful) (fuel : Nat) (p : Pose K)
    (lo hi : K) (hlo : 0 ≤ lo) (hp : Fits m p) (parts : List (Part K)) (h : lanesWithin m fuel p lo hi = .ok parts)
    (g : σ) (q : Pose K × σ) (hq : poseFrom e parts g = .ok q) : Near m p lo hi q.1 := by
  obtain ⟨r, hr, hrq⟩ := poseFrom_ok e he parts (lanesWithin_ordered m hm fuel p lo hi hlo hp parts h) g q hq
  exact C165_near_partial m hm fuel p lo hi hlo hp parts h r hr q.1 hrq

omit [Field K] [IsStrictOrderedRing K] in
theorem feasible_iff (m : Map K) (s g : Pose K) : feasible m s g = true ↔ Reachable m s g := by
  unfold feasible Reachable
  cases h : m.opposite g with
  | none => simp
  | some o => simp [or_assoc]

theorem goalPose_ok (m : Map K) (hm : ∀ i, 0 ≤ m.length i) (e : Engine K σ) (he : e.Lawful) (fuel : Nat) (p : Suite K)
    (hf : 0 ≤ p.goalId → p.partialGoal = true → Fits m ⟨p.goalId, p.goalS⟩) (g : σ) (r : Pose K × σ)
    (h : goalPose m e fuel p g = .ok r) : AskedGoal m p r.1 := by
  unfold goalPose at h
  split at h
  · rename_i hneg
    exact ⟨fun _ => randomPosition_ok m hm e he g r h, fun h0 => absurd hneg (not_lt.mpr h0), fun h0 => absurd hneg (not_lt.mpr h0)⟩
  · rename_i hneg
    split at h
    · rename_i hp
      obtain ⟨parts, h1, h2⟩ := bind_ok h
      exact ⟨fun h0 => absurd h0 hneg, fun _ hc => by simp [hp] at hc,
        fun h0 h3 => near_of_lanes m hm e he fuel _ 0 _ le_rfl (hf h0 h3) parts h1 g r h2⟩
    · rename_i hp
      simp only [Except.ok.injEq] at h
      subst h
      exact ⟨fun h0 => absurd h0 hneg, fun _ _ => rfl, fun _ hc => absurd hc hp⟩

theorem egoRoute_ok (m : Map K) (hm : ∀ i, 0 ≤ m.length i) (e : Engine K σ) (he : e.Lawful) (fuel : Nat) (p : Suite K)
    (hf : 0 ≤ p.goalId → p.partialGoal = true → Fits m ⟨p.goalId, p.goalS⟩) : ∀ (n : Nat) (g : σ) (r : (Pose K × Pose K) × σ),
    egoRoute m e fuel p n g = .ok r → OnMap m r.1.1 ∧ AskedGoal m p r.1.2 ∧ Reachable m r.1.1 r.1.2
  | 0, _, _, h => by simp [egoRoute] at h
  | n + 1, g, r, h => by
    unfold egoRoute at h
    obtain ⟨goal, h1, h⟩ := bind_ok h
    obtain ⟨start, h2, h⟩ := bind_ok h
    split at h
    · rename_i hfe
      simp only [Except.ok.injEq] at h
      subst h
      exact ⟨randomPosition_ok m hm e he _ _ h2, goalPose_ok m hm e he fuel p hf g goal h1, (feasible_iff m _ _).mp hfe⟩
    · exact egoRoute_ok m hm e he fuel p hf n _ r h

omit [IsStrictOrderedRing K] in
theorem nearest_foldl (m : Map K) (q : Pose K) (apart : K) : ∀ (poses : List (Pose K)) (acc : Option K),
    ((poses.foldl (fun acc p => let d := distance m.sqrt (m.place p) (m.place q); some (acc.elim d (min d))) acc).all
      (fun d => decide (d > apart)) = true ↔
    acc.all (fun d => decide (d > apart)) = true ∧ ∀ p ∈ poses, apart < distance m.sqrt (m.place p) (m.place q))
  | [], acc => by simp
  | p :: poses, acc => by
    rw [List.foldl_cons, nearest_foldl m q apart poses]
    cases acc with
    | none => simp
    | some a => simp [and_comm, and_assoc]

omit [IsStrictOrderedRing K] in
theorem nearest_all (m : Map K) (q : Pose K) (apart : K) (poses : List (Pose K)) :
    (nearest m poses q).all (fun d => decide (d > apart)) = true ↔
      ∀ p ∈ poses, apart < distance m.sqrt (m.place p) (m.place q) := by
  rw [nearest, nearest_foldl]
  simp

omit [IsStrictOrderedRing K] in
theorem poseApart_ok (m : Map K) (e : Engine K σ) (poses : List (Pose K)) (apart : K) (parts : List (Part K)) : ∀ (n : Nat) (g : σ) (q : Pose K × σ),
    poseApart m e poses apart parts n g = .ok q →
      (∀ p ∈ poses, apart < distance m.sqrt (m.place p) (m.place q.1)) ∧ ∃ g', poseFrom e parts g' = .ok q
  | 0, _, _, h => by simp [poseApart] at h
  | n + 1, g, q, h => by
    unfold poseApart at h
    obtain ⟨r, h1, h⟩ := bind_ok h
    split at h
    · rename_i he
      simp only [Except.ok.injEq] at h
      subst h
      rw [List.isEmpty_iff] at he
      exact ⟨by simp [he], g, h1⟩
    · split at h
      · rename_i hn
        simp only [Except.ok.injEq] at h
        subst h
        exact ⟨(nearest_all m _ apart poses).mp hn, g, h1⟩
      · exact poseApart_ok m e poses apart parts n _ q h

theorem apart_squared (m : Map K) (hr : m.Root) (p q : Point K) (h : 5 < distance m.sqrt p q) : 5 * 5 < squared p q := by
  have h0 : distance m.sqrt p q = m.sqrt (squared p q) := by
    unfold distance squared
    simp only [pow_two]
  have h1 : 0 ≤ squared p q := by
    unfold squared
    positivity
  obtain ⟨-, h2⟩ := hr _ h1
  rw [h0] at h
  nlinarith

theorem npcLoop_ok (m : Map K) (hr : m.Root) (e : Engine K σ) (he : e.Lawful) (p : Suite K) (parts : List (Part K)) (P : Pose K → Prop)
    (hP : ∀ g q, poseFrom e parts g = .ok q → P q.1) : ∀ (n : Nat) (done : List (Npc K)) (g : σ) (l : List (Npc K)),
    AskedNpcs m p P done → npcLoop m e p parts n done g = .ok l → AskedNpcs m p P l ∧ l.length = done.length + n
  | 0, done, g, l, hd, h => by
    have h : done = l := by simpa [npcLoop] using h
    subst h
    exact ⟨hd, rfl⟩
  | n + 1, done, g, l, hd, h => by
    unfold npcLoop at h
    obtain ⟨v, h1, h⟩ := bind_ok h
    unfold npc at h1
    obtain ⟨q, h2, h1⟩ := bind_ok h1
    simp only [Except.ok.injEq] at h1
    subst h1
    obtain ⟨ha, g', hg'⟩ := poseApart_ok m e _ _ parts _ _ q h2
    have hstep : AskedNpcs m p P (done ++ [⟨q.1, (uniform e p.minSpeed p.maxSpeed q.2).1, "npc" ++ toString done.length⟩]) := by
      refine ⟨fun i v hv => ?_, fun v hv => ?_, fun hle v hv => ?_, fun i j v w hij hv hw => ?_⟩
      · rcases lt_trichotomy i done.length with hi | hi | hi
        · rw [List.getElem?_append_left hi] at hv
          exact hd.names i v hv
        · subst hi
          simp only [List.getElem?_concat_length, Option.some.injEq] at hv
          subst hv
          rfl
        · rw [List.getElem?_eq_none (by simp; omega)] at hv
          simp at hv
      · rcases List.mem_append.mp hv with hv | hv
        · exact hd.near v hv
        · rw [List.mem_singleton] at hv
          subst hv
          exact hP g' q hg'
      · rcases List.mem_append.mp hv with hv | hv
        · exact hd.speeds hle v hv
        · rw [List.mem_singleton] at hv
          subst hv
          exact uniform_bounds e he _ _ hle _
      · rcases lt_trichotomy j done.length with hj | hj | hj
        · rw [List.getElem?_append_left hj] at hw
          rw [List.getElem?_append_left (by omega)] at hv
          exact hd.apart i j v w hij hv hw
        · subst hj
          simp only [List.getElem?_concat_length, Option.some.injEq] at hw
          subst hw
          rw [List.getElem?_append_left (by omega)] at hv
          exact apart_squared m hr _ _ (ha v.start (List.mem_map.mpr ⟨v, List.mem_of_getElem? hv, rfl⟩))
        · rw [List.getElem?_eq_none (by simp; omega)] at hw
          simp at hw
    obtain ⟨r1, r2⟩ := npcLoop_ok m hr e he p parts P hP n _ _ l hstep h
    exact ⟨r1, by rw [r2]; simp; omega⟩

omit [IsStrictOrderedRing K] in
theorem generate_ok (m : Map K) (e : Engine K σ) (fuel : Nat) (p : Suite K) (seed : Int) (t : Test K)
    (h : generate m e fuel p seed = .ok t) : ∃ r parts, m.ids ≠ [] ∧
      egoRoute m e fuel p attempts (e.seeded seed) = .ok r ∧ lanesWithin m fuel r.1.1 p.minDistance p.maxDistance = .ok parts ∧
      npcLoop m e p parts p.npcs.toNat [] r.2 = .ok t.npcs ∧ t.start = r.1.1 ∧ t.goal = r.1.2 ∧ t.goalPlace = m.place r.1.2 := by
  unfold generate at h
  by_cases hi : m.ids.isEmpty = true
  · simp [hi, bind, Except.bind] at h
  · simp only [hi] at h
    obtain ⟨-, -, h⟩ := bind_ok h
    obtain ⟨r, h1, h⟩ := bind_ok h
    obtain ⟨parts, h2, h⟩ := bind_ok h
    obtain ⟨npcs, h3, h⟩ := bind_ok h
    simp only [Except.ok.injEq] at h
    subst h
    exact ⟨r, parts, by simpa [List.isEmpty_iff] using hi, h1, h2, h3, rfl, rfl, rfl⟩

/-! ### Random tests -/

/-- In a random test the ego starts on the map, its goal is the one that was asked for (that of the
parameters, one near it, or any place on the map), and there is a way from the start to the goal or to
the lane opposite to it.  Only part of the claim: a way within the same lanelet may be one that leads
backwards, see `C164_behind_violated`. -/
theorem C164_route_partial (m : Map K) (hm : ∀ i, 0 ≤ m.length i) (e : Engine K σ) (he : e.Lawful) (fuel : Nat) (p : Suite K)
    (hf : 0 ≤ p.goalId → p.partialGoal = true → Fits m ⟨p.goalId, p.goalS⟩) (seed : Int) (t : Test K)
    (h : generate m e fuel p seed = .ok t) :
    OnMap m t.start ∧ AskedGoal m p t.goal ∧ Reachable m t.start t.goal ∧ t.goalPlace = m.place t.goal := by
  obtain ⟨r, parts, -, h1, -, -, hs, hg, hp⟩ := generate_ok m e fuel p seed t h
  rw [hs, hg, hp]
  obtain ⟨a, b, c⟩ := egoRoute_ok m hm e he fuel p hf attempts _ r h1
  exact ⟨a, b, c, rfl⟩

/-- There are as many vehicles as were asked for, with names of their own, at speeds within the bounds,
more than five metres from each other, and each at a distance from the start of the ego that is within
the bounds, on the road from there or from a lane beside.  Only part of the claim: see
`C164_ego_violated`. -/
theorem C164_npcs_partial (m : Map K) (hm : ∀ i, 0 ≤ m.length i) (hr : m.Root) (e : Engine K σ) (he : e.Lawful) (fuel : Nat) (p : Suite K)
    (hp : 0 ≤ p.minDistance) (hf : ∀ q, OnMap m q → Fits m q)
    (seed : Int) (t : Test K) (h : generate m e fuel p seed = .ok t)
    (hg : 0 ≤ p.goalId → p.partialGoal = true → Fits m ⟨p.goalId, p.goalS⟩) :
    t.npcs.length = p.npcs.toNat ∧ AskedNpcs m p (Near m t.start p.minDistance p.maxDistance) t.npcs := by
  obtain ⟨r, parts, -, h1, h2, h3, hs, -, -⟩ := generate_ok m e fuel p seed t h
  have hon := (egoRoute_ok m hm e he fuel p hg attempts _ r h1).1
  rw [hs]
  obtain ⟨a, b⟩ := npcLoop_ok m hr e he p parts (Near m r.1.1 p.minDistance p.maxDistance)
    (fun g q hq => near_of_lanes m hm e he fuel _ _ _ hp (hf _ hon) parts h2 g q hq) _ [] _ t.npcs
    ⟨by simp, by simp, by simp, by simp⟩ h3
  exact ⟨by simpa using b, a⟩

omit [IsStrictOrderedRing K] in
/-- On a map without lanelets there is no test. -/
theorem C164_empty (m : Map K) (e : Engine K σ) (fuel : Nat) (p : Suite K) (seed : Int) (h : m.ids = []) :
    generate m e fuel p seed = .error .noLanelets := by
  simp [generate, h, bind, Except.bind]

omit [IsStrictOrderedRing K] in
theorem bind_defined {α β : Type} {x : Except Fault α} {f : α → Except Fault β} (hx : x ≠ .error .outOfRange)
    (hf : ∀ a, x = .ok a → f a ≠ .error .outOfRange) : (x >>= f) ≠ .error .outOfRange := by
  cases x with
  | error e => exact fun h => hx (by simpa [bind, Except.bind] using h)
  | ok a => exact hf a rfl

omit [IsStrictOrderedRing K] in
theorem search_defined (m : Map K) : ∀ (fuel : Nat) (q : List (Item K)) (found : List (Part K)), search m fuel q found ≠ .error .outOfRange
  | _, [], _ => by simp [search]
  | 0, _ :: _, _ => by simp [search]
  | fuel + 1, _ :: _, _ => by unfold search; exact search_defined m fuel _ _

omit [IsStrictOrderedRing K] in
theorem lanesWithin_defined (m : Map K) (fuel : Nat) (p : Pose K) (lo hi : K) : lanesWithin m fuel p lo hi ≠ .error .outOfRange := by
  unfold lanesWithin
  split
  · simp
  · split
    · exact search_defined m _ _ _
    · simp

omit [IsStrictOrderedRing K] in
theorem randomPosition_defined (m : Map K) (e : Engine K σ) (he : e.Lawful) (h : m.ids ≠ []) (g : σ) : randomPosition m e g ≠ .error .outOfRange := by
  unfold randomPosition
  rw [List.getElem?_eq_getElem (he.index g _ (List.length_pos_iff.mpr h))]
  simp

omit [IsStrictOrderedRing K] in
theorem poseFrom_defined (e : Engine K σ) (he : e.Lawful) (parts : List (Part K)) (g : σ) : poseFrom e parts g ≠ .error .outOfRange := by
  unfold poseFrom
  split
  · simp
  · rename_i h
    rw [List.getElem?_eq_getElem (he.index g _ (List.length_pos_iff.mpr (by simpa using h)))]
    simp

omit [IsStrictOrderedRing K] in
theorem egoRoute_defined (m : Map K) (e : Engine K σ) (he : e.Lawful) (fuel : Nat) (p : Suite K) (h : m.ids ≠ []) :
    ∀ (n : Nat) (g : σ), egoRoute m e fuel p n g ≠ .error .outOfRange
  | 0, _ => by simp [egoRoute]
  | n + 1, g => by
    unfold egoRoute
    refine bind_defined ?_ fun goal _ => bind_defined (randomPosition_defined m e he h _) fun start _ => ?_
    · unfold goalPose
      split
      · exact randomPosition_defined m e he h _
      · split
        · exact bind_defined (lanesWithin_defined m _ _ _ _) fun parts _ => poseFrom_defined e he parts g
        · simp
    · split
      · simp
      · exact egoRoute_defined m e he fuel p h n _

omit [IsStrictOrderedRing K] in
theorem poseApart_defined (m : Map K) (e : Engine K σ) (he : e.Lawful) (poses : List (Pose K)) (apart : K) (parts : List (Part K)) :
    ∀ (n : Nat) (g : σ), poseApart m e poses apart parts n g ≠ .error .outOfRange
  | 0, _ => by simp [poseApart]
  | n + 1, g => by
    unfold poseApart
    refine bind_defined (poseFrom_defined e he parts g) fun q _ => ?_
    split
    · simp
    · split
      · simp
      · exact poseApart_defined m e he poses apart parts n _

omit [IsStrictOrderedRing K] in
theorem npcLoop_defined (m : Map K) (e : Engine K σ) (he : e.Lawful) (p : Suite K) (parts : List (Part K)) :
    ∀ (n : Nat) (done : List (Npc K)) (g : σ), npcLoop m e p parts n done g ≠ .error .outOfRange
  | 0, _, _ => by simp [npcLoop]
  | n + 1, done, g => by
    unfold npcLoop
    refine bind_defined ?_ fun v _ => npcLoop_defined m e he p parts n _ _
    unfold npc
    exact bind_defined (poseApart_defined m e he _ _ _ _ _) fun q _ => by simp

omit [IsStrictOrderedRing K] in
/-- Making up a test never picks from an empty list or beyond the end of one: it ends with a test or with an error that says why
there is none. -/
theorem C164_defined (m : Map K) (e : Engine K σ) (he : e.Lawful) (fuel : Nat) (p : Suite K) (seed : Int) :
    generate m e fuel p seed ≠ .error .outOfRange := by
  unfold generate
  by_cases h : m.ids = []
  · simp [h, bind, Except.bind]
  · simp only [List.isEmpty_iff, h, if_false]
    exact bind_defined (egoRoute_defined m e he fuel p h _ _) fun r _ => bind_defined (lanesWithin_defined m _ _ _ _) fun parts _ =>
      bind_defined (npcLoop_defined m e he p parts _ _ _) fun npcs _ => by simp

/-! ### Repeating tests -/

omit [Field K] [LinearOrder K] [IsStrictOrderedRing K] in
theorem load_save (p : Suite K) (seeds : List Int) : load (save p seeds) = .ok (p, seeds) := by
  have h1 : decode (encode p) = .ok p := by
    simp [decode, encode, text, real, int, bool, List.lookup, bind, Except.bind]
  have h2 : ∀ l : List Int, (l.map (fun n => [("seed", (Scalar.int n : Scalar K))])).mapM (fun l => int l "seed") = .ok l := by
    intro l
    induction l with
    | nil => rfl
    | cons n l ih =>
      rw [List.map_cons, List.mapM_cons, ih]
      simp [int, List.lookup, bind, Except.bind, pure, Except.pure]
  simp only [load, save, h1, h2, bind, Except.bind]

omit [IsStrictOrderedRing K] in
theorem prepare_ok (maps : String → Map K) (e : Engine K σ) (fuel : Nat) (p : Suite K) (seeds : List Int) (r : Prepared K)
    (h : prepare maps e fuel p seeds = .ok r) : validate (maps p.map) p = .ok p ∧
      seeds.mapM (generate (maps p.map) e fuel p) = .ok r.tests ∧ r.tests ≠ [] ∧ r.file = save p seeds := by
  unfold prepare at h
  obtain ⟨q, h1, h3⟩ := bind_ok h
  obtain ⟨tests, h2, h4⟩ := bind_ok h3
  clear h h3
  have hq : q = p := by
    unfold validate at h1
    split at h1
    · simpa [eq_comm] using h1
    · split at h1
      · split at h1
        · simpa [eq_comm] using h1
        · simp at h1
      · simp at h1
  subst hq
  split at h4
  · simp at h4
  · rename_i hne
    simp only [Except.ok.injEq] at h4
    subst h4
    exact ⟨h1, h2, by simpa [List.isEmpty_iff] using hne, rfl⟩

omit [IsStrictOrderedRing K] in
/-- A run with the file that an earlier run has written has the same tests and writes the same file. -/
theorem C166_replay (maps : String → Map K) (e : Engine K σ) (fuel : Nat) (p : Suite K) (count seed : Int) (device : Nat → Nat)
    (r : Prepared K) (h : randomRun maps e fuel p count seed device = .ok r) : replay maps e fuel r.file = .ok r := by
  obtain ⟨-, -, -, hfile⟩ := prepare_ok maps e fuel p _ r h
  unfold replay
  rw [hfile, load_save]
  exact h

omit [Field K] [LinearOrder K] [IsStrictOrderedRing K] in
theorem mapM_ok {α β : Type} (f : α → Except Fault β) : ∀ (l : List α) (r : List β), l.mapM f = .ok r →
    l.length = r.length ∧ ∀ (i : Nat) (a : α), l[i]? = some a → ∃ b, r[i]? = some b ∧ f a = .ok b
  | [], r, h => by
    have : r = [] := by simpa [pure, Except.pure, eq_comm] using h
    subst this
    simp
  | a :: l, r, h => by
    rw [List.mapM_cons] at h
    obtain ⟨b, h1, h⟩ := bind_ok h
    obtain ⟨t, h2, h⟩ := bind_ok h
    have : b :: t = r := by simpa [pure, Except.pure] using h
    subst this
    obtain ⟨i1, i2⟩ := mapM_ok f l t h2
    refine ⟨by simp [i1], fun i x hx => ?_⟩
    cases i with
    | zero =>
      simp only [List.getElem?_cons_zero, Option.some.injEq] at hx
      subst hx
      exact ⟨b, by simp, h1⟩
    | succ i => simpa using i2 i x (by simpa using hx)

omit [IsStrictOrderedRing K] in
/-- There are as many tests as were asked for; the test at each place is the one of its seed: that of the
random device, if none was given. -/
theorem C166_tests (maps : String → Map K) (e : Engine K σ) (fuel : Nat) (p : Suite K) (count seed : Int) (device : Nat → Nat)
    (r : Prepared K) (h : randomRun maps e fuel p count seed device = .ok r) :
    (r.tests.length : Int) = count ∧ ∀ (i : Nat) (t : Test K), r.tests[i]? = some t →
      generate (maps p.map) e fuel p (if seed < 0 then (device i : Int) else seed) = .ok t := by
  obtain ⟨-, ht, hne, -⟩ := prepare_ok maps e fuel p _ r h
  obtain ⟨h1, h2⟩ := mapM_ok _ _ _ ht
  simp only [seeds, List.length_map, List.length_range] at h1
  have hpos : 0 < r.tests.length := List.length_pos_iff.mpr hne
  refine ⟨by omega, fun i t hi => ?_⟩
  have hlt : i < r.tests.length := (List.getElem?_eq_some_iff.mp hi).1
  obtain ⟨b, hb, hg⟩ := h2 i (if seed < 0 then (device i : Int) else seed) (by
    simp only [seeds, List.getElem?_map]
    rw [List.getElem?_range (by omega)]
    rfl)
  rw [hi] at hb
  simp only [Option.some.injEq] at hb
  subst hb
  exact hg

omit [IsStrictOrderedRing K] in
/-- With a seed of one's own, all tests of a run are the same test. -/
theorem C166_fixed_violated (maps : String → Map K) (e : Engine K σ) (fuel : Nat) (p : Suite K) (count seed : Int) (hs : 0 ≤ seed)
    (device : Nat → Nat) (r : Prepared K) (h : randomRun maps e fuel p count seed device = .ok r) :
    ∀ t ∈ r.tests, ∀ t' ∈ r.tests, t = t' := by
  obtain ⟨-, h2⟩ := C166_tests maps e fuel p count seed device r h
  intro t ht t' ht'
  obtain ⟨i, hi⟩ := List.mem_iff_getElem?.mp ht
  obtain ⟨j, hj⟩ := List.mem_iff_getElem?.mp ht'
  have a := h2 i t hi
  have b := h2 j t' hj
  rw [if_neg (not_lt.mpr hs)] at a b
  rw [a] at b
  simpa using b

omit [IsStrictOrderedRing K] in
/-- Without tests the runner does not end at once: it goes on with a test that does not exist, unless its
parameters are refused. -/
theorem C166_none_violated (maps : String → Map K) (e : Engine K σ) (fuel : Nat) (p : Suite K) (count seed : Int) (hc : count ≤ 0)
    (device : Nat → Nat) (hg : p.goalId = -1) : randomRun maps e fuel p count seed device = .error .noTests := by
  have : count.toNat = 0 := by omega
  simp [randomRun, prepare, seeds, this, validate, hg, bind, Except.bind, pure, Except.pure]

omit [IsStrictOrderedRing K] in
/-- A goal that is not on the map is refused, and no test is made. -/
theorem C166_goal (maps : String → Map K) (e : Engine K σ) (fuel : Nat) (p : Suite K) (hp : p.goalId ≠ -1)
    (h : ¬ OnMap (maps p.map) ⟨p.goalId, p.goalS⟩) (count seed : Int) (device : Nat → Nat) :
    randomRun maps e fuel p count seed device = .error .badGoal := by
  have : validate (maps p.map) p = .error .badGoal := by
    unfold validate
    rw [if_neg hp]
    split
    · rename_i hm
      rw [if_neg]
      exact fun h2 => h ⟨hm, h2.1, h2.2⟩
    · rfl
  simp only [randomRun, prepare, this, bind, Except.bind]

omit [IsStrictOrderedRing K] in
/-- If one of the tests cannot be made, there are no tests at all. -/
theorem C166_one_violated (maps : String → Map K) (e : Engine K σ) (fuel : Nat) (p : Suite K) (count seed : Int) (device : Nat → Nat)
    (i : Nat) (hi : (i : Int) < count) (f : Fault)
    (hf : generate (maps p.map) e fuel p (if seed < 0 then (device i : Int) else seed) = .error f) (r : Prepared K) :
    randomRun maps e fuel p count seed device ≠ .ok r := by
  intro h
  obtain ⟨h1, h2⟩ := C166_tests maps e fuel p count seed device r h
  have hlt : i < r.tests.length := by omega
  have := h2 i r.tests[i] (List.getElem?_eq_getElem hlt)
  rw [hf] at this
  simp at this

/-! ### Concrete tests -/

/-- An engine that takes the indices and numbers of its seed: the first of the lanelets and parts, and a
fixed number. -/
def fixed (u : ℚ) : Engine ℚ Int where
  seeded := id
  index := fun g n => (g.toNat % n, g)
  unit := fun g => (u, g + 1)

/-- Parameters. -/
def suite : Suite ℚ := ⟨"random_test", "ring", -1, 0, false, 30, 1, 1 / 2, 3, 10, 100⟩

theorem fixed_lawful (u : ℚ) (h : 0 ≤ u ∧ u < 1) : (fixed u).Lawful :=
  ⟨fun _ _ hn => Nat.mod_lt _ hn, fun _ => h⟩

example : ring.Root ∧ (fixed (2 / 5)).Lawful ∧ (∀ q, OnMap ring q → Fits ring q) ∧ generate ring (fixed (2 / 5)) 20 suite 0 =
    .ok ⟨⟨1, 20⟩, ⟨20, 0, 0⟩, ⟨1, 20⟩, [⟨⟨1, 20⟩, 3 / 2, "npc0"⟩]⟩ := by
  refine ⟨root_root, fixed_lawful _ (by norm_num), ?_, by decide +kernel⟩
  rintro q ⟨-, h1, h2⟩ o ho
  rcases ho with rfl | h | ⟨j, h, -⟩
  · exact ⟨h1, h2⟩
  · simp [ring] at h
  · simp [ring] at h

example : ∃ r, randomRun (fun _ => ring) (fixed (2 / 5)) 20 suite 3 (-1) (fun i => i) = .ok r :=
  ⟨(randomRun (fun _ => ring) (fixed (2 / 5)) 20 suite 3 (-1) (fun i => i)).toOption.getD ⟨[], []⟩, by decide +kernel⟩

/-- An engine that gives small and large numbers in turn. -/
def falling : Engine ℚ Int where
  seeded := id
  index := fun g n => (g.toNat % n, g)
  unit := fun g => (if g % 2 = 0 then 1 / 5 else 4 / 5, g + 1)

theorem falling_lawful : falling.Lawful := by
  refine ⟨fun _ _ hn => Nat.mod_lt _ hn, fun g => ?_⟩
  simp only [falling]
  split <;> norm_num

example : falling.Lawful ∧ generate ring falling 20 { suite with npcs := 3 } 0 =
    .ok ⟨⟨1, 10⟩, ⟨10, 0, 0⟩, ⟨1, 40⟩, [⟨⟨1, 10⟩, 5 / 2, "npc0"⟩, ⟨⟨1, 42⟩, 5 / 2, "npc1"⟩, ⟨⟨1, 48⟩, 1, "npc2"⟩]⟩ :=
  ⟨falling_lawful, by decide +kernel⟩

/-- A vehicle can be put where the ego starts, although it is to be at least ten metres away. -/
theorem C164_ego_violated : ∃ (e : Engine ℚ Int) (t : Test ℚ), e.Lawful ∧ generate ring e 20 suite 0 = .ok t ∧
    ∃ v ∈ t.npcs, v.start = t.start :=
  ⟨fixed (2 / 5), ⟨⟨1, 20⟩, ⟨20, 0, 0⟩, ⟨1, 20⟩, [⟨⟨1, 20⟩, 3 / 2, "npc0"⟩]⟩, fixed_lawful _ (by norm_num), by decide +kernel,
    ⟨⟨1, 20⟩, 3 / 2, "npc0"⟩, by simp, rfl⟩

/-- One lanelet that leads nowhere; the way from it to itself is itself. -/
def deadEnd : Map ℚ where
  ids := [1]
  length := fun _ => 50
  following := fun _ => []
  previous := fun _ => []
  besides := fun _ => []
  opposite := fun _ => none
  route := fun i j => if i = j then [i] else []
  place := fun p => ⟨p.s, 0, 0⟩
  sqrt := root

/-- The goal of a test may be behind its start, where no way leads to. -/
theorem C164_behind_violated : ∃ (e : Engine ℚ Int) (t : Test ℚ), e.Lawful ∧ generate deadEnd e 20 suite 0 = .ok t ∧
    t.start.id = t.goal.id ∧ t.goal.s < t.start.s ∧ deadEnd.following t.start.id = [] := by
  exact ⟨falling, ⟨⟨1, 10⟩, ⟨10, 0, 0⟩, ⟨1, 40⟩, [⟨⟨1, 6⟩, 5 / 2, "npc0"⟩]⟩, falling_lawful, by decide +kernel, rfl, by norm_num, rfl⟩

end Verif.RandomTest
