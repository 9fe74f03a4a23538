import Verif.Grid.Sensor
import Verif.Grid.ShadowTheorems
/-
C119: the published occupancy grid; and the end of the computation of what is hidden (C120).
-/
namespace Verif.Grid
open Classical Spec Geometry

/-! ### The computation of the hidden area ends -/

theorem cornerAngle_twelve (w h : ℝ) {t : ℝ} (ht : t ≤ 3 * Real.pi) : t < cornerAngle w h 12 := by
  have := angle_gt (corner w h 12)
  have pi := Real.pi_pos
  have e : cornerAngle w h 12 = angle (corner w h 12) + 2 * Real.pi * 3 := by
    rw [cornerAngle]; norm_num
  rw [e]
  linarith

theorem seek_some (w h : ℝ) {t : ℝ} (ht : t ≤ 3 * Real.pi) : ∀ n i : Nat, i + n = 12 → ∃ j, seek w h t i = some j ∧ j ≤ 12 := by
  intro n
  induction n with
  | zero =>
    intro i hi
    obtain rfl : i = 12 := by omega
    exact ⟨12, by rw [seek.eq_1, if_neg (not_le.2 (cornerAngle_twelve w h ht))], le_rfl⟩
  | succ n ih =>
    intro i hi
    rw [seek.eq_1]
    split
    · exact ih (i + 1) (by omega)
    · exact ⟨i, rfl, by omega⟩

theorem between_some (w h : ℝ) {t : ℝ} (ht : t ≤ 3 * Real.pi) : ∀ n i : Nat, i + n = 12 → ∃ r, between w h t i = some r := by
  intro n
  induction n with
  | zero =>
    intro i hi
    obtain rfl : i = 12 := by omega
    exact ⟨([], 12), by rw [between.eq_1, if_neg (not_lt.2 (cornerAngle_twelve w h ht).le)]⟩
  | succ n ih =>
    intro i hi
    rw [between.eq_1]
    split
    · obtain ⟨r, hr⟩ := ih (i + 1) (by omega)
      exact ⟨_, by rw [hr]; rfl⟩
    · exact ⟨_, rfl⟩

/-- C120. The computation ends for every polygon and every grid. -/
theorem C120_ends (w h : ℝ) (ps : List Point) : ∃ res, hidden w h ps = some res := by
  cases ps with
  | nil => exact ⟨[], rfl⟩
  | cons p ps =>
    rw [hidden]
    split
    · exact ⟨_, rfl⟩
    · have pi := Real.pi_pos
      have h1 := angle_le (minMax p ps).1
      have h2 := angle_le (minMax p ps).2
      obtain ⟨i, e1, hi⟩ := seek_some w h (t := angle (minMax p ps).1) (by linarith) 12 0 rfl
      obtain ⟨r, e2⟩ := between_some w h (t := if angle (minMax p ps).1 > angle (minMax p ps).2 then angle (minMax p ps).2 + 2 * Real.pi else angle (minMax p ps).2)
        (by split <;> linarith) (12 - i) i (by omega)
      refine ⟨(minMax p ps).1 :: projection w h (minMax p ps).1 i :: r.1 ++ [projection w h (minMax p ps).2 r.2, (minMax p ps).2], ?_⟩
      simp only [e1, e2, Option.bind_eq_bind, Option.bind_some]

/-! ### Names -/

theorem uniqueNames_iff (c : Settings) (status : List Entity) (seen : List String) :
    uniqueNames c status seen = true ↔ ((status.filter (·.name ≠ c.entity)).map (·.name)).Nodup ∧ ∀ s ∈ status, s.name ≠ c.entity → s.name ∉ seen := by
  induction status generalizing seen with
  | nil => simp [uniqueNames]
  | cons s status ih =>
    unfold uniqueNames
    by_cases hs : s.name = c.entity
    · have hb : (c.entity != s.name) = false := by simp [hs]
      rw [hb]
      simp only [Bool.false_eq_true, if_false]
      rw [ih, List.filter_cons_of_neg (by simpa using hs)]
      constructor
      · rintro ⟨h1, h2⟩
        refine ⟨h1, fun x hx hn => ?_⟩
        rcases List.mem_cons.1 hx with rfl | hx
        · exact absurd hs hn
        · exact h2 x hx hn
      · rintro ⟨h1, h2⟩
        exact ⟨h1, fun x hx hn => h2 x (List.mem_cons_of_mem _ hx) hn⟩
    · have hb : (c.entity != s.name) = true := by simpa using Ne.symm hs
      rw [hb, List.filter_cons_of_pos (by simpa using hs), List.map_cons, List.nodup_cons]
      simp only [if_true]
      by_cases hm : s.name ∈ seen
      · have : seen.contains s.name = true := by simpa using hm
        rw [this]
        simp only [if_true, Bool.false_eq_true, false_iff]
        rintro ⟨-, h2⟩
        exact h2 s (by simp) hs hm
      · have : seen.contains s.name = false := by simpa using hm
        rw [this]
        simp only [Bool.false_eq_true, if_false]
        rw [ih]
        constructor
        · rintro ⟨h1, h2⟩
          refine ⟨⟨?_, h1⟩, fun x hx hn => ?_⟩
          · simp only [List.mem_map, List.mem_filter, not_exists, not_and]
            rintro x ⟨hx, hn⟩ he
            exact h2 x hx (by simpa using hn) (by simp [he])
          · rcases List.mem_cons.1 hx with rfl | hx
            · exact hm
            · exact fun h => h2 x hx hn (List.mem_cons_of_mem _ h)
        · rintro ⟨⟨h0, h1⟩, h2⟩
          refine ⟨h1, fun x hx hn h => ?_⟩
          rcases List.mem_cons.1 h with h | h
          · apply h0
            simp only [List.mem_map, List.mem_filter]
            exact ⟨x, ⟨hx, by simpa using hn⟩, h⟩
          · exact h2 x (List.mem_cons_of_mem _ hx) hn h

/-- An entity that the grid is to show: not the one with the sensor, detected by the lidar, and in range if this is asked for. -/
def Shown (c : Settings) (status : List Entity) (lidar : List String) (e : Entity) : Prop :=
  e ∈ status ∧ e.name ≠ c.entity ∧ e.name ∈ lidar ∧
    (c.byRange = true → ∃ ego, (status.find? fun s => s.ego && s.name == c.entity) = some ego ∧ distance e.pose.position ego.pose.position ≤ c.range)

theorem name_unique {c : Settings} {status : List Entity} (h : ((status.filter (·.name ≠ c.entity)).map (·.name)).Nodup) {a b : Entity} (ha : a ∈ status) (hb : b ∈ status)
    (na : a.name ≠ c.entity) (hab : a.name = b.name) : a = b := by
  refine List.inj_on_of_nodup_map h ?_ ?_ hab
  · rw [List.mem_filter]; exact ⟨ha, by simpa using na⟩
  · rw [List.mem_filter]; exact ⟨hb, by rw [← hab]; simpa using na⟩

theorem drawn_iff {c : Settings} {status : List Entity} {lidar ns : List String} (h : ((status.filter (·.name ≠ c.entity)).map (·.name)).Nodup)
    (hn : names c status lidar = some ns) (e : Entity) : e ∈ drawn c status ns ↔ Shown c status lidar e := by
  rw [drawn, List.mem_filter]
  unfold names at hn
  have hne : (c.entity != e.name) = true ↔ e.name ≠ c.entity := by
    rw [bne_iff_ne]; exact ne_comm
  rw [Bool.and_eq_true, hne]
  by_cases hr : c.byRange = true
  · rw [if_pos hr] at hn
    unfold detectedObjects sensorPose at hn
    cases hf : (status.find? fun s => s.ego && s.name == c.entity) with
    | none => rw [hf] at hn; exact absurd hn (by simp)
    | some ego =>
      rw [hf] at hn
      simp only [Option.map_some, Option.bind_eq_bind, Option.bind_some, Option.some.injEq] at hn
      subst hn
      unfold Shown
      rw [hf]
      constructor
      · rintro ⟨h1, h2, h3⟩
        rw [List.contains_iff_mem, List.mem_map] at h3
        obtain ⟨x, hx, hxe⟩ := h3
        rw [List.mem_filter] at hx
        obtain rfl := name_unique h h1 hx.1 h2 hxe.symm
        have := hx.2
        simp only [Bool.and_eq_true, List.contains_iff_mem, decide_eq_true_eq] at this
        exact ⟨h1, h2, this.1, fun _ => ⟨ego, rfl, this.2.2⟩⟩
      · rintro ⟨h1, h2, h3, h4⟩
        obtain ⟨ego', h5, h6⟩ := h4 hr
        cases h5
        refine ⟨h1, h2, ?_⟩
        rw [List.contains_iff_mem, List.mem_map]
        refine ⟨e, ?_, rfl⟩
        rw [List.mem_filter]
        refine ⟨h1, ?_⟩
        simp only [Bool.and_eq_true, List.contains_iff_mem, decide_eq_true_eq, bne_iff_ne]
        exact ⟨h3, h2, h6⟩
  · rw [if_neg hr] at hn
    cases hn
    unfold Shown
    rw [List.contains_iff_mem]
    exact ⟨fun ⟨h1, h2, h3⟩ => ⟨h1, h2, h3, fun h => absurd h hr⟩, fun ⟨h1, h2, h3, _⟩ => ⟨h1, h2, h3⟩⟩

theorem names_none {c : Settings} {status : List Entity} {lidar : List String} :
    names c status lidar = none ↔ c.byRange = true ∧ ∀ s ∈ status, ¬ (s.ego = true ∧ s.name = c.entity) := by
  unfold names
  by_cases hr : c.byRange = true
  · rw [if_pos hr]
    unfold detectedObjects sensorPose
    cases hf : (status.find? fun s => s.ego && s.name == c.entity) with
    | none =>
      rw [List.find?_eq_none] at hf
      refine ⟨fun _ => ⟨hr, fun s hs => by simpa using hf s hs⟩, fun _ => rfl⟩
    | some ego =>
      have h1 := List.find?_some hf
      have h2 := List.mem_of_find?_eq_some hf
      simp only [Option.map_some, Option.bind_eq_bind, Option.bind_some, reduceCtorEq, false_iff]
      rintro ⟨-, h⟩
      exact h ego h2 (by simpa using h1)
  · rw [if_neg hr]
    simp [hr]

/-! ### The message -/

theorem mapM_total {α β : Type} {f : α → Option β} (h : ∀ a, ∃ b, f a = some b) (l : List α) : ∃ g : α → β, (∀ a, f a = some (g a)) ∧ l.mapM f = some (l.map g) := by
  choose g hg using h
  refine ⟨g, hg, ?_⟩
  induction l with
  | nil => rfl
  | cons a l ih => rw [List.mapM_cons, hg, ih]; rfl

/-- The outline of an object on the grid, in pixels. -/
noncomputable def pixels (hull : List Pt → List Pt) (clip : List Point → List Point) (c : Config) (ego : Pt) (e : Entity) : List Point :=
  (occupiedArea hull clip ⟨ego, ⟨0, 0, 0, 1⟩⟩ (vertices e)).map (toPixel c)

/-- The outline of what an object hides, in pixels. -/
def HiddenPixels (hull : List Pt → List Pt) (clip : List Point → List Point) (c : Config) (ego : Pt) (e : Entity) (ps : List Point) : Prop :=
  ∃ res, hidden (c.width * c.resolution / 2) (c.height * c.resolution / 2) (occupiedArea hull clip ⟨ego, ⟨0, 0, 0, 1⟩⟩ (vertices e)) = some res ∧ ps = res.map (toPixel c)

/-- C119. A grid is published exactly if there is an entity with the name of the sensor, no two other entities have the same name, and, if only entities in range are
to be shown, the entity with the sensor is an ego entity. Whatever was published before: a cell is occupied exactly if it is covered by an entity to be shown, else
invisible exactly if it is covered by what such an entity hides, else free. -/
theorem C119_message (hull : List Pt → List Pt) (clip : List Point → List Point) (c : Settings) (hw : 0 < c.grid.width) (builder : State) (status : List Entity) (lidar : List String)
    (hlen : status.length ≤ 32767) :
    (((∃ a ∈ status, a.name = c.entity) ∧ ((status.filter (·.name ≠ c.entity)).map (·.name)).Nodup ∧ (c.byRange = true → ∃ s ∈ status, s.ego = true ∧ s.name = c.entity)) →
      ∃ m ego, occupancyGrid hull clip c builder status lidar = some (some m) ∧ (status.find? fun s => c.entity == s.name) = some ego ∧
        m.height = c.grid.height ∧ m.width = c.grid.width ∧ m.resolution = c.grid.resolution ∧ m.origin.orientation = ⟨0, 0, 0, 1⟩ ∧
        ∀ row col, row < c.grid.height → col < c.grid.width →
          ((∃ e, Shown c status lidar e ∧ ∃ cells, outline (pixels hull clip c.grid ego.pose.position e) = some cells ∧ Covered cells row col) →
            m.data (row * c.grid.width + col) = c.grid.occupied) ∧
          ((¬ ∃ e, Shown c status lidar e ∧ ∃ cells, outline (pixels hull clip c.grid ego.pose.position e) = some cells ∧ Covered cells row col) →
            (∃ e, Shown c status lidar e ∧ ∃ ps cells, HiddenPixels hull clip c.grid ego.pose.position e ps ∧ outline ps = some cells ∧ Covered cells row col) →
            m.data (row * c.grid.width + col) = c.grid.invisible) ∧
          ((¬ ∃ e, Shown c status lidar e ∧ ∃ cells, outline (pixels hull clip c.grid ego.pose.position e) = some cells ∧ Covered cells row col) →
            (¬ ∃ e, Shown c status lidar e ∧ ∃ ps cells, HiddenPixels hull clip c.grid ego.pose.position e ps ∧ outline ps = some cells ∧ Covered cells row col) →
            m.data (row * c.grid.width + col) = 0)) ∧
    (¬ ((∃ a ∈ status, a.name = c.entity) ∧ ((status.filter (·.name ≠ c.entity)).map (·.name)).Nodup ∧ (c.byRange = true → ∃ s ∈ status, s.ego = true ∧ s.name = c.entity)) →
      occupancyGrid hull clip c builder status lidar = some none) := by
  have hu := uniqueNames_iff c status []
  simp only [List.not_mem_nil, not_false_eq_true, implies_true, and_true] at hu
  have hfind : (status.find? fun s => c.entity == s.name) = none ↔ ¬ ∃ a ∈ status, a.name = c.entity := by
    rw [List.find?_eq_none]
    constructor
    · rintro h ⟨a, h1, h2⟩
      exact h a h1 (by simp [h2])
    · intro h a ha he
      exact h ⟨a, ha, (by simpa using he : c.entity = a.name).symm⟩
  unfold occupancyGrid
  constructor
  · rintro ⟨h1, h2, h3⟩
    rw [if_neg (by rw [hu.2 h2]; simp)]
    cases hf : (status.find? fun s => c.entity == s.name) with
    | none => exact absurd h1 (hfind.1 hf)
    | some ego =>
      cases hn : names c status lidar with
      | none =>
        obtain ⟨k1, k2⟩ := names_none.1 hn
        obtain ⟨s, hs, hs'⟩ := h3 k1
        exact absurd hs' (k2 s hs)
      | some ns =>
        have tot : ∀ e, ∃ b, areas hull clip c.grid ⟨ego.pose.position, ⟨0, 0, 0, 1⟩⟩ e = some b := by
          intro e
          obtain ⟨res, hres⟩ := C120_ends (c.grid.width * c.grid.resolution / 2) (c.grid.height * c.grid.resolution / 2)
            (occupiedArea hull clip ⟨ego.pose.position, ⟨0, 0, 0, 1⟩⟩ (vertices e))
          exact ⟨_, by rw [areas]; simp only [hres, Option.bind_eq_bind, Option.bind_some]; rfl⟩
        obtain ⟨g, hg, hm⟩ := mapM_total tot (drawn c status ns)
        have hlen' : ((drawn c status ns).map g).length ≤ 32767 := by
          rw [List.length_map]
          exact (List.length_filter_le _ _).trans hlen
        obtain ⟨s', hs, hv⟩ := C118_values c.grid hw builder _ hlen'
        have hfst : ∀ e, (g e).1 = pixels hull clip c.grid ego.pose.position e ∧ ∀ ps, HiddenPixels hull clip c.grid ego.pose.position e ps ↔ ps = (g e).2 := by
          intro e
          obtain ⟨res, hres⟩ := C120_ends (c.grid.width * c.grid.resolution / 2) (c.grid.height * c.grid.resolution / 2)
            (occupiedArea hull clip ⟨ego.pose.position, ⟨0, 0, 0, 1⟩⟩ (vertices e))
          have := hg e
          rw [areas] at this
          simp only [hres, Option.bind_eq_bind, Option.bind_some, Option.some.injEq] at this
          rw [← this]
          refine ⟨rfl, fun ps => ?_⟩
          unfold HiddenPixels
          rw [hres]
          simp
        refine ⟨⟨s'.values, c.grid.height, c.grid.width, c.grid.resolution, messageOrigin c.grid ⟨ego.pose.position, ⟨0, 0, 0, 1⟩⟩⟩, ego, ?_, rfl, rfl, rfl, rfl, rfl, ?_⟩
        · simp only [hm, hs, Option.bind_eq_bind, Option.bind_some]
          rfl
        · intro row col hr hc
          obtain ⟨v1, v2, v3⟩ := hv row col hr hc
          have same : (∃ p ∈ (drawn c status ns).map g, ∃ cells, outline p.1 = some cells ∧ Covered cells row col) ↔
              ∃ e, Shown c status lidar e ∧ ∃ cells, outline (pixels hull clip c.grid ego.pose.position e) = some cells ∧ Covered cells row col := by
            simp only [List.mem_map, exists_exists_and_eq_and, drawn_iff h2 hn, (hfst _).1]
          have same' : (∃ p ∈ (drawn c status ns).map g, ∃ cells, outline p.2 = some cells ∧ Covered cells row col) ↔
              ∃ e, Shown c status lidar e ∧ ∃ ps cells, HiddenPixels hull clip c.grid ego.pose.position e ps ∧ outline ps = some cells ∧ Covered cells row col := by
            simp only [List.mem_map, exists_exists_and_eq_and, drawn_iff h2 hn, (hfst _).2, exists_and_left, exists_eq_left]
          rw [same] at v1 v2 v3
          rw [same'] at v2 v3
          exact ⟨v1, v2, v3⟩
  · intro hno
    by_cases h2 : ((status.filter (·.name ≠ c.entity)).map (·.name)).Nodup
    · rw [if_neg (by rw [hu.2 h2]; simp)]
      cases hf : (status.find? fun s => c.entity == s.name) with
      | none => rfl
      | some ego =>
        have h1 : ∃ a ∈ status, a.name = c.entity := by
          by_contra h
          rw [hfind.2 h] at hf
          exact absurd hf (by simp)
        have hn : names c status lidar = none := by
          rw [names_none]
          by_contra hcon
          refine hno ⟨h1, h2, fun hr => ?_⟩
          by_contra hex
          exact hcon ⟨hr, fun s hs hs' => hex ⟨s, hs, hs'⟩⟩
        simp only [hn]
    · rw [if_pos (by rw [← Bool.not_eq_true, hu]; exact h2)]

/-- C119. No grid is published if there are more entities to be shown than the counters can count. -/
theorem C119_many (hull : List Pt → List Pt) (clip : List Point → List Point) (c : Settings) (hw : 0 < c.grid.width) (builder : State) (status : List Entity) (lidar : List String)
    (l : List Entity) (hl : l.Nodup) (hs : ∀ e ∈ l, Shown c status lidar e) (hlen : 32767 < l.length) (m : Message) :
    occupancyGrid hull clip c builder status lidar ≠ some (some m) := by
  unfold occupancyGrid
  split
  · simp
  · next hu =>
    have h2 : ((status.filter (·.name ≠ c.entity)).map (·.name)).Nodup := by
      have := uniqueNames_iff c status []
      simp only [List.not_mem_nil, not_false_eq_true, implies_true, and_true] at this
      exact this.1 (by simpa using hu)
    cases hf : (status.find? fun s => c.entity == s.name) with
    | none => simp
    | some ego =>
      cases hn : names c status lidar with
      | none => simp
      | some ns =>
        have tot : ∀ e, ∃ b, areas hull clip c.grid ⟨ego.pose.position, ⟨0, 0, 0, 1⟩⟩ e = some b := by
          intro e
          obtain ⟨res, hres⟩ := C120_ends (c.grid.width * c.grid.resolution / 2) (c.grid.height * c.grid.resolution / 2)
            (occupiedArea hull clip ⟨ego.pose.position, ⟨0, 0, 0, 1⟩⟩ (vertices e))
          exact ⟨_, by rw [areas]; simp only [hres, Option.bind_eq_bind, Option.bind_some]; rfl⟩
        obtain ⟨g, _, hm⟩ := mapM_total tot (drawn c status ns)
        have hsub : l.length ≤ (drawn c status ns).length :=
          (List.subperm_of_subset hl fun e he => (drawn_iff h2 hn e).2 (hs e he)).length_le
        have hlong : 32767 < ((drawn c status ns).map g).length := by rw [List.length_map]; omega
        obtain ⟨s', hs'⟩ := C118_many c.grid hw builder (((drawn c status ns).map g).take 32767) (((drawn c status ns).map g)[32767])
          (((drawn c status ns).map g).drop 32768) (by rw [List.length_take]; omega)
        rw [List.getElem_cons_drop, List.take_append_drop] at hs'
        simp only [hm, hs', Option.bind_eq_bind, Option.bind_some]
        simp

/-- Any number of entities can be there to be shown. -/
example (n : Nat) : ∃ (c : Settings) (status : List Entity) (lidar : List String) (l : List Entity),
    0 < c.grid.width ∧ l.Nodup ∧ (∀ e ∈ l, Shown c status lidar e) ∧ l.length = n := by
  let f : Nat → Entity := fun i => ⟨String.ofList (List.replicate i 'n'), false, ⟨⟨3, 4, 0⟩, ⟨0, 0, 0, 1⟩⟩, ⟨⟨0, 0, 0⟩, ⟨1, 1, 2⟩⟩⟩
  refine ⟨⟨"ego", false, 10, ⟨1, 3, 3, 100, 50⟩⟩, (List.range n).map f, ((List.range n).map f).map (·.name), (List.range n).map f, by simp, ?_, ?_, by simp⟩
  · refine List.Nodup.map ?_ List.nodup_range
    intro a b h
    have := congrArg (fun e : Entity => e.name.toList.length) h
    simpa [f] using this
  · intro e he
    refine ⟨he, ?_, List.mem_map_of_mem he, by simp⟩
    obtain ⟨i, -, rfl⟩ := List.mem_map.mp he
    intro h
    have h' := congrArg String.toList h
    have : 'e' ∈ (f i).name.toList := by
      rw [h']; decide
    simp [f] at this

/-- C119. The vertices that are drawn are those of the bounding box of the entity, moved and turned with it. -/
theorem C119_vertices (e : Entity) (p : Pt) : p ∈ vertices e ↔ ∃ sx sy sz : ℝ, (sx = 1 ∨ sx = -1) ∧ (sy = 1 ∨ sy = -1) ∧ (sz = 1 ∨ sz = -1) ∧
    p = transformPoint e.pose ⟨e.box.center.x + sx * e.box.dims.x / 2, e.box.center.y + sy * e.box.dims.y / 2, e.box.center.z + sz * e.box.dims.z / 2⟩ := by
  have key : ∀ sx sy sz : ℝ, transformPoint (boxPose e) ⟨sx * 0.5 * e.box.dims.x, sy * 0.5 * e.box.dims.y, sz * 0.5 * e.box.dims.z⟩ =
      transformPoint e.pose ⟨e.box.center.x + sx * e.box.dims.x / 2, e.box.center.y + sy * e.box.dims.y / 2, e.box.center.z + sz * e.box.dims.z / 2⟩ := by
    intro sx sy sz
    ext <;> simp only [transformPoint, boxPose, rotate, Pt.add] <;> ring
  have k1 := key 1 1 1
  have k2 := key 1 1 (-1)
  have k3 := key 1 (-1) 1
  have k4 := key 1 (-1) (-1)
  have k5 := key (-1) 1 1
  have k6 := key (-1) 1 (-1)
  have k7 := key (-1) (-1) 1
  have k8 := key (-1) (-1) (-1)
  simp only [one_mul, show (-1 : ℝ) * 0.5 = -0.5 by norm_num] at k1 k2 k3 k4 k5 k6 k7 k8
  unfold vertices boxVertices
  simp only [List.map_cons, List.map_nil, List.mem_cons, List.not_mem_nil, or_false, k1, k2, k3, k4, k5, k6, k7, k8]
  constructor
  · rintro (rfl | rfl | rfl | rfl | rfl | rfl | rfl | rfl)
    · exact ⟨-1, -1, -1, by simp, by simp, by simp, by simp⟩
    · exact ⟨-1, -1, 1, by simp, by simp, by simp, by simp⟩
    · exact ⟨-1, 1, -1, by simp, by simp, by simp, by simp⟩
    · exact ⟨-1, 1, 1, by simp, by simp, by simp, by simp⟩
    · exact ⟨1, -1, -1, by simp, by simp, by simp, by simp⟩
    · exact ⟨1, -1, 1, by simp, by simp, by simp, by simp⟩
    · exact ⟨1, 1, -1, by simp, by simp, by simp, by simp⟩
    · exact ⟨1, 1, 1, by simp, by simp, by simp, by simp⟩
  · rintro ⟨sx, sy, sz, rfl | rfl, rfl | rfl, rfl | rfl, rfl⟩ <;> simp

/-! ### The place of the grid -/

/-- The point of the map that a reader of the message finds at a place of the grid, given in cells: the origin of the message is the corner of the cell (0, 0), and cells are as large as
the resolution. -/
noncomputable def place (origin : Pose) (resolution : ℝ) (pixel : Point) : Point := (origin.position.x + pixel.1 * resolution, origin.position.y + pixel.2 * resolution)

/-- C119. If the grid is as high as it is wide, then each point of the map is found where it is: the cell in which it is drawn is the cell where readers of the message look for it. -/
theorem C119_place_partial (c : Config) (hres : c.resolution ≠ 0) (hsq : c.height = c.width) (ego p : Pt) :
    place (messageOrigin c ⟨ego, ⟨0, 0, 0, 1⟩⟩) c.resolution (toPixel c ((toGrid ⟨ego, ⟨0, 0, 0, 1⟩⟩ p).x, (toGrid ⟨ego, ⟨0, 0, 0, 1⟩⟩ p).y)) = (p.x, p.y) := by
  simp only [place, messageOrigin, toPixel, toGrid, turn, Quat.conj, hsq]
  ext
  · simp only; field_simp; ring
  · simp only; field_simp; ring

/-- C119 is violated by every grid that is not square: everything on it is found at a wrong place of the map, off by half of the difference of the sides in both directions. -/
theorem C119_place_violated (c : Config) (hres : c.resolution ≠ 0) (hsq : c.height ≠ c.width) (ego p : Pt) :
    place (messageOrigin c ⟨ego, ⟨0, 0, 0, 1⟩⟩) c.resolution (toPixel c ((toGrid ⟨ego, ⟨0, 0, 0, 1⟩⟩ p).x, (toGrid ⟨ego, ⟨0, 0, 0, 1⟩⟩ p).y)) =
      (p.x + ((c.width : ℝ) - c.height) * c.resolution / 2, p.y + ((c.height : ℝ) - c.width) * c.resolution / 2) ∧
    place (messageOrigin c ⟨ego, ⟨0, 0, 0, 1⟩⟩) c.resolution (toPixel c ((toGrid ⟨ego, ⟨0, 0, 0, 1⟩⟩ p).x, (toGrid ⟨ego, ⟨0, 0, 0, 1⟩⟩ p).y)) ≠ (p.x, p.y) := by
  have e : place (messageOrigin c ⟨ego, ⟨0, 0, 0, 1⟩⟩) c.resolution (toPixel c ((toGrid ⟨ego, ⟨0, 0, 0, 1⟩⟩ p).x, (toGrid ⟨ego, ⟨0, 0, 0, 1⟩⟩ p).y)) =
      (p.x + ((c.width : ℝ) - c.height) * c.resolution / 2, p.y + ((c.height : ℝ) - c.width) * c.resolution / 2) := by
    simp only [place, messageOrigin, toPixel, toGrid, turn, Quat.conj]
    ext
    · simp only; field_simp; ring
    · simp only; field_simp; ring
  refine ⟨e, ?_⟩
  rw [e]
  intro h
  have h1 := congrArg Prod.fst h
  simp only at h1
  have h2 : ((c.width : ℝ) - c.height) * c.resolution = 0 := by linarith
  rcases mul_eq_zero.1 h2 with h3 | h3
  · exact hsq (by have : (c.width : ℝ) = c.height := by linarith
                  exact (by exact_mod_cast this.symm))
  · exact hres h3

/-- C119 would be violated if the grid was turned with the ego vehicle, as the interface of the builder allows: the vehicle is then not in the middle of its own grid. -/
theorem C119_turned_violated : ∃ ego : Pose, ego.orientation.x ^ 2 + ego.orientation.y ^ 2 + ego.orientation.z ^ 2 + ego.orientation.w ^ 2 = 1 ∧ toGrid ego ego.position ≠ ⟨0, 0, 0⟩ := by
  refine ⟨⟨⟨1, 0, 0⟩, ⟨0, 0, 1, 0⟩⟩, by norm_num, ?_⟩
  simp only [toGrid, turn, Quat.conj]
  intro h
  have := congrArg Pt.x h
  norm_num at this

/-- A frame with the ego vehicle and a detected pedestrian: a grid is published. -/
example (hull : List Pt → List Pt) (clip : List Point → List Point) (b : State) : ∃ m, occupancyGrid hull clip ⟨"ego", true, 10, ⟨1, 3, 3, 100, 50⟩⟩ b
    [⟨"ego", true, ⟨⟨0, 0, 0⟩, ⟨0, 0, 0, 1⟩⟩, ⟨⟨0, 0, 0⟩, ⟨4, 2, 2⟩⟩⟩, ⟨"pedestrian", false, ⟨⟨3, 4, 0⟩, ⟨0, 0, 0, 1⟩⟩, ⟨⟨0, 0, 0⟩, ⟨1, 1, 2⟩⟩⟩] ["pedestrian"] = some (some m) := by
  obtain ⟨h1, -⟩ := C119_message hull clip ⟨"ego", true, 10, ⟨1, 3, 3, 100, 50⟩⟩ (by simp) b
    [⟨"ego", true, ⟨⟨0, 0, 0⟩, ⟨0, 0, 0, 1⟩⟩, ⟨⟨0, 0, 0⟩, ⟨4, 2, 2⟩⟩⟩, ⟨"pedestrian", false, ⟨⟨3, 4, 0⟩, ⟨0, 0, 0, 1⟩⟩, ⟨⟨0, 0, 0⟩, ⟨1, 1, 2⟩⟩⟩] ["pedestrian"] (by simp)
  obtain ⟨m, ego, h, -⟩ := h1 (by simp)
  exact ⟨m, h⟩

end Verif.Grid
