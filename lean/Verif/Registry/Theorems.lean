import Verif.Registry.Lemmas
import Verif.Registry.Distances
import Mathlib.Data.Nat.Basic
/-
C25: the entity registry. C26: the table of pairwise distances. C48: the environment simulator mirrors the
registry. C49: resetting the behaviour plugin.
-/
namespace Verif.Registry
variable {α : Type} [DecidableEq α]

/-- The identity order, for the examples. -/
def plain : Hash α := ⟨id, fun _ => List.Perm.refl _⟩

/-- C25: after any history of spawn, despawn and frame requests, for any iteration order of the hash
table: every request had the specified result and effect, names are unique, at most one entity is an
Ego, and `isEntityExist` says whether the entity is there. -/
theorem C25_registry (H : Hash α) (os : List (Op α)) (ho : ∀ o ∈ os, ordinary o = true) :
    let r := run H (World.init false) os
    Follows (fun _ => none) os r.2 (kindOf r.1) ∧ r.1.names.Nodup ∧
    (∀ m m', kindOf r.1 m = some .ego → kindOf r.1 m' = some .ego → m = m') ∧
    ∀ n, r.1.exists_ n = (kindOf r.1 n).isSome := by
  obtain ⟨h1, h2⟩ := inv_run H os ho (inv_init (α := α))
  refine ⟨h2, h1.nodup, ?_, ?_⟩
  · intro m m' hm hm'
    have e1 := mem_namesOf.mpr ((kindOf_eq h1.nodup).mp hm)
    have e2 := mem_namesOf.mpr ((kindOf_eq h1.nodup).mp hm')
    have hl := h1.ego
    match hx : namesOf .ego (run H (World.init false) os).1.entities, e1, e2, hl with
    | [x], e1, e2, _ => simp at e1 e2; rw [e1, e2]
    | [], e1, _, _ => simp at e1
    | _ :: _ :: _, _, _, hl => simp at hl
  · intro n
    cases hk : kindOf (run H (World.init false) os).1 n with
    | none => exact kindOf_none.mp hk
    | some k =>
      simp only [Option.isSome_some]
      apply Classical.byContradiction
      intro c
      have := kindOf_none.mpr (by simpa using c)
      rw [hk] at this; cases this

/-- C25: a request that is refused (returns false or throws) changes nothing, in either process. -/
theorem C25_refused_changes_nothing (H : Hash α) (os : List (Op α)) (ho : ∀ o ∈ os, ordinary o = true)
    (o : Op α) (h : ordinary o = true)
    (refused : (exec H (run H (World.init false) os).1 o).2 ≠ .ok) :
    (exec H (run H (World.init false) os).1 o).1 = (run H (World.init false) os).1 :=
  (inv_exec H o h (inv_run H os ho inv_init).1).2.2.1 refused

/-- Two Egos, a name taken, an unknown name, a name used again. -/
example : (run plain (World.init false) [.spawn "ego" .ego true, .spawn "b" .vehicle true,
      .spawn "ego2" .ego true, .spawn "b" .pedestrian true, .spawn "c" .misc false, .updateFrame,
      .despawn "x", .despawn "b", .spawn "b" .pedestrian true, .despawn "ego", .spawn "ego2" .ego true,
      .updateFrame]).2
    = [.ok, .ok, .throws, .throws, .throws, .ok, .no, .ok, .ok, .ok, .ok, .ok] := by decide +kernel

/-- Spawning in a networked world that satisfies the invariant has the same result and the same effect on
the entity manager as in standalone mode. -/
theorem standalone_step (H : Hash α) (o : Op α) (h : ordinary o = true) (hf : o ≠ .updateFrame) {w v : World α}
    (hw : Inv w) (hv : v.standalone = true) (he : v.entities = w.entities) :
    (exec H v o).1.entities = (exec H w o).1.entities ∧ (exec H v o).1.standalone = true ∧
    (exec H v o).2 = (exec H w o).2 := by
  have hd : ∀ {w v : World α} (n : α), Inv w → v.standalone = true → v.entities = w.entities →
      (v.despawn n).1.entities = (w.despawn n).1.entities ∧ (v.despawn n).1.standalone = true ∧
      (v.despawn n).2 = (w.despawn n).2 := by
    intro w v n hw hv he
    obtain ⟨_, h2, _, h4⟩ := inv_despawn n hw
    have h5 := h2.1
    have hx : v.exists_ n = w.exists_ n := by unfold World.exists_; rw [he]
    rw [h4, h5]
    unfold World.despawn World.despawnEntity
    cases c : w.exists_ n with
    | true =>
      have hk : kindOf w n ≠ none := by rw [Ne, kindOf_none, c]; simp
      rw [hx, c, if_neg hk]
      simp only [if_true, hv]
      exact ⟨by rw [he], trivial, trivial⟩
    | false =>
      rw [hx, c, if_pos (kindOf_none.mpr c)]
      simp only [Bool.false_eq_true, if_false]
      refine ⟨?_, hv, trivial⟩
      rw [he]; symm
      rw [List.filter_eq_self]
      intro a ha
      simp only [ne_eq, decide_not, Bool.not_eq_eq_eq_not, Bool.not_true, decide_eq_false_iff_not]
      intro e
      have : w.exists_ n = true := exists_iff.mpr (e ▸ List.mem_map.mpr ⟨a, ha, rfl⟩)
      rw [c] at this; cases this
  cases o with
  | spawn n k c =>
    have h2 := (inv_exec H (.spawn n k c) rfl hw).2.2.2.1
    show (v.spawn H n k c).1.entities = (w.spawn H n k c).1.entities ∧ (v.spawn H n k c).1.standalone = true ∧ (v.spawn H n k c).2 = (w.spawn H n k c).2
    replace h2 : (w.spawn H n k c).2 ≠ .hangs := h2
    have ha : v.anyEgo = w.anyEgo := by unfold World.anyEgo; rw [he]
    have hx : v.exists_ n = w.exists_ n := by unfold World.exists_; rw [he]
    unfold World.spawn World.spawnEntity at h2 ⊢
    rw [ha, hx, he]
    by_cases c1 : k = .ego ∧ w.anyEgo = true
    · simp only [if_pos c1]; exact ⟨he, hv, trivial⟩
    · simp only [if_neg c1] at h2 ⊢
      by_cases c2 : c = false
      · simp only [if_pos c2]; exact ⟨he, hv, trivial⟩
      · simp only [if_neg c2] at h2 ⊢
        by_cases c3 : w.exists_ n = true
        · simp only [if_pos c3]; exact ⟨he, hv, trivial⟩
        · simp only [if_neg c3, hv, if_true, hw.networked, Bool.false_eq_true, if_false, World.ask, hw.opened] at h2 ⊢
          have hr : (Sim.spawn n k w.sim).2 ≠ .refused := by
            unfold Sim.spawn; cases k <;> simp
            split <;> simp
          cases hs : (Sim.spawn n k w.sim).2 with
          | ok => simp
          | refused => exact absurd hs hr
          | dead => rw [hs] at h2; exact absurd rfl h2
  | despawn n => exact hd n hw hv he
  | despawnEntities =>
    have key : ∀ (ns : List α) {w v : World α}, Inv w → v.standalone = true → v.entities = w.entities →
        (World.despawnList ns v).1.entities = (World.despawnList ns w).1.entities ∧
        (World.despawnList ns v).1.standalone = true ∧
        (World.despawnList ns v).2 = (World.despawnList ns w).2 := by
      intro ns
      induction ns with
      | nil => intro w v _ hv he; exact ⟨he, hv, rfl⟩
      | cons n ns ih =>
        intro w v hw hv he
        obtain ⟨d1, d2, d3⟩ := hd n hw hv he
        have di := (inv_despawn n hw).1
        unfold World.despawnList
        rcases hvd : v.despawn n with ⟨v', r⟩
        rcases hwd : w.despawn n with ⟨w', r'⟩
        rw [hvd, hwd] at d1 d3
        rw [hvd] at d2
        rw [hwd] at di
        simp only at d1 d2 d3
        subst d3
        cases r with
        | ok => exact ih di d2 d1
        | _ => exact ⟨d1, d2, rfl⟩
    show (World.despawnList v.names v).1.entities = (World.despawnList w.names w).1.entities ∧ _ ∧ _
    have hn : v.names = w.names := by unfold World.names; rw [he]
    have := key w.names hw hv he
    refine ⟨by rw [hn]; exact this.1, ?_, ?_⟩
    · show (World.despawnList v.names v).1.standalone = true
      rw [hn]; exact this.2.1
    · show (World.despawnList v.names v).2 = (World.despawnList w.names w).2
      rw [hn]; exact this.2.2
  | updateFrame => exact absurd rfl hf
  | reset n => cases h
  | close => cases h

/-- C25 in standalone mode: the same, for spawn and despawn requests. -/
theorem C25_standalone (H : Hash α) (os : List (Op α)) (ho : ∀ o ∈ os, ordinary o = true ∧ o ≠ .updateFrame) :
    let r := run H (World.init true) os
    Follows (fun _ => none) os r.2 (kindOf r.1) ∧ r.1.names.Nodup := by
  have key : ∀ (os : List (Op α)), (∀ o ∈ os, ordinary o = true ∧ o ≠ .updateFrame) → ∀ {w v : World α}, Inv w →
      v.standalone = true → v.entities = w.entities →
      (run H v os).1.entities = (run H w os).1.entities ∧ (run H v os).2 = (run H w os).2 := by
    intro os
    induction os with
    | nil => intro _ w v _ _ he; exact ⟨he, rfl⟩
    | cons o os ih =>
      intro ho w v hw hv he
      obtain ⟨s1, s2, s3⟩ := standalone_step H o (ho o (by simp)).1 (ho o (by simp)).2 hw hv he
      obtain ⟨i1, _, _, i4, i5⟩ := inv_exec H o (ho o (by simp)).1 hw
      have := ih (fun o' h' => ho o' (by simp [h'])) i1 s2 s1
      rw [run, run, if_neg (by simp [s3, i4, i5]), if_neg (by simp [i4, i5])]
      exact ⟨this.1, by dsimp only; rw [s3, this.2]⟩
  have hi := inv_run H os (fun o h => (ho o h).1) (inv_init (α := α))
  have hk := key os ho (inv_init (α := α)) (v := World.init true) rfl rfl
  have e : kindOf (run H (World.init true) os).1 = kindOf (run H (World.init false) os).1 := by
    funext n; unfold kindOf; rw [hk.1]
  refine ⟨?_, ?_⟩
  · rw [hk.2, e]; exact hi.2
  · unfold World.names; rw [hk.1]; exact hi.1.nodup

/-- C25 fails once the connection is closed: the spawn request throws, but the entity exists. -/
theorem C25_after_close_violated :
    let r := run plain (World.init false) [.close, .spawn "a" .vehicle true]
    r.2 = [.ok, .throws] ∧ r.1.exists_ "a" = true := by decide +kernel

/-- C48: after any such history the environment simulator has exactly the entities of the registry, each
under its kind and once, with a status, and a frame can be run. -/
theorem C48_mirror (H : Hash α) (os : List (Op α)) (ho : ∀ o ∈ os, ordinary o = true) :
    let w := (run H (World.init false) os).1
    (∀ k n, n ∈ w.sim.ofKind k ↔ kindOf w n = some k) ∧ (∀ k, (w.sim.ofKind k).Nodup) ∧
    (∀ n, n ∈ w.sim.status ↔ w.exists_ n = true) ∧ w.sim.status.Nodup ∧ w.updateFrame = (w, .ok) := by
  have h := (inv_run H os ho (inv_init (α := α))).1
  have hk : ∀ k n, n ∈ (run H (World.init false) os).1.sim.ofKind k ↔ kindOf (run H (World.init false) os).1 n = some k := by
    intro k n
    rw [(h.mirror k).mem_iff, mem_namesOf, kindOf_eq h.nodup]
  refine ⟨hk, ?_, ?_, ?_, inv_frame h⟩
  · intro k
    rw [(h.mirror k).nodup_iff]
    unfold namesOf
    exact h.nodup.sublist (List.filter_sublist.map _)
  · intro n
    rw [h.status.mem_iff, exists_iff]; rfl
  · rw [h.status.nodup_iff]; exact h.nodup

example : let w := (run plain (World.init false) [.spawn "ego" .ego true, .spawn "b" .vehicle true,
      .spawn "p" .pedestrian true, .despawn "b"]).1
    w.sim.egos = ["ego"] ∧ w.sim.vehicles = [] ∧ w.sim.status = ["ego", "p"] := by decide +kernel

/-- C48 in standalone mode: nothing is mirrored, but `updateFrame` still asks the environment simulator
for the states of all entities: with an entity in the registry a frame never returns. -/
theorem C48_standalone_violated (H : Hash α) (n : α) :
    (run H (World.init true) [.spawn n .vehicle true, .updateFrame]).2 = [.ok, .hangs] := by
  have hp := H.perm ([] ++ [(n, Kind.vehicle)])
  have ho : H.order [(n, Kind.vehicle)] = [(n, Kind.vehicle)] := List.perm_singleton.mp hp
  have e : (exec H (World.init true) (.spawn n .vehicle true)) =
      ({ entities := [(n, Kind.vehicle)], sim := Sim.empty, closed := false, standalone := true }, .ok) := by
    simp [exec, World.spawn, World.spawnEntity, World.init, World.exists_, ho]
  rw [run, e]
  simp [run, exec, World.updateFrame, World.anyEgo, World.ask, Sim.updateStatus, World.names, Sim.empty]

/-- C49 is violated: resetting the behaviour plugin of a vehicle or pedestrian always has undefined
behaviour: the state of the entity is read after the entity has been destroyed. -/
theorem C49_violated (H : Hash α) (os : List (Op α)) (ho : ∀ o ∈ os, ordinary o = true) (n : α) (k : Kind)
    (hn : kindOf (run H (World.init false) os).1 n = some k) (hk : k = .vehicle ∨ k = .pedestrian) :
    (exec H (run H (World.init false) os).1 (.reset n)).2 = .undefined := by
  have h := (inv_run H os ho (inv_init (α := α))).1
  have := find_of_mem h.nodup ((kindOf_eq h.nodup).mp hn)
  simp only [exec, World.resetBehaviorPlugin, this]
  rcases hk with rfl | rfl <;> rfl

/-- C49, in part: resetting an Ego, a miscellaneous object or an unknown name throws and changes nothing. -/
theorem C49_others_partial (H : Hash α) (os : List (Op α)) (ho : ∀ o ∈ os, ordinary o = true) (n : α)
    (hn : ∀ k, kindOf (run H (World.init false) os).1 n = some k → k = .ego ∨ k = .misc) :
    exec H (run H (World.init false) os).1 (.reset n) = ((run H (World.init false) os).1, .throws) := by
  have h := (inv_run H os ho (inv_init (α := α))).1
  simp only [exec, World.resetBehaviorPlugin]
  cases hf : (run H (World.init false) os).1.entities.find? (fun e => e.1 = n) with
  | none => rfl
  | some x =>
    obtain ⟨a, k⟩ := x
    have := hn k (by unfold kindOf; rw [hf]; rfl)
    rcases this with rfl | rfl <;> rfl

example : (run plain (World.init false) [.spawn "b" .vehicle true, .reset "c", .reset "b"]).2 = [.ok, .throws, .undefined] := by
  decide +kernel

/-- C26: for any two distinct entities the table has an entry under their names in order, whichever is
given first: their distance; and there is exactly one entry per pair and no other. -/
theorem C26_pairs {ν P D : Type} [LinearOrder ν] (dist : P → P → D) (symm : ∀ p q, dist p q = dist q p)
    (es : List (ν × P)) (hn : (es.map (·.1)).Nodup) :
    (∀ a p b q, (a, p) ∈ es → (b, q) ∈ es → a ≠ b →
      (distances dist es).filter (fun x => x.1 = (min a b, max a b)) = [((min a b, max a b), dist p q)]) ∧
    ∀ x ∈ distances dist es, ∃ a p b q, (a, p) ∈ es ∧ (b, q) ∈ es ∧ a < b ∧ x = ((a, b), dist p q) := by
  obtain ⟨⟨hs, hd⟩, hc⟩ := distances_good dist es
  have mm : ∀ a b : ν, minmax a b = (min a b, max a b) := by
    intro a b
    unfold minmax
    split
    · rename_i h; rw [min_eq_right (le_of_lt h), max_eq_left (le_of_lt h)]
    · rename_i h; rw [min_eq_left (not_lt.mp h), max_eq_right (not_lt.mp h)]
  have inj : ∀ a p p', (a, p) ∈ es → (a, p') ∈ es → p = p' := by
    intro a p p' h h'
    clear hs hd hc
    induction es with
    | nil => simp at h
    | cons e es ih =>
      simp only [List.map_cons, List.nodup_cons] at hn
      rcases List.mem_cons.mp h with rfl | h1 <;> rcases List.mem_cons.mp h' with e' | h2
      · simp at e'; exact e'.symm
      · exact absurd (List.mem_map.mpr ⟨_, h2, rfl⟩) hn.1
      · subst e'; exact absurd (List.mem_map.mpr ⟨_, h1, rfl⟩) hn.1
      · exact ih hn.2 h1 h2
  refine ⟨?_, ?_⟩
  · intro a p b q ha hb hne
    have hmem := hc _ ha _ hb hne
    rw [← mm]
    obtain ⟨x, hx, ex⟩ := List.mem_map.mp hmem
    have hval : x = (minmax a b, dist p q) := by
      obtain ⟨e, he, f, hf, hne', rfl⟩ := hs x hx
      obtain ⟨e1, e2⟩ := e
      obtain ⟨f1, f2⟩ := f
      simp only at ex
      rcases minmax_inj ex with ⟨rfl, rfl⟩ | ⟨rfl, rfl⟩
      · rw [inj _ _ _ he ha, inj _ _ _ hf hb]
      · rw [inj _ _ _ he hb, inj _ _ _ hf ha, symm, minmax_comm]
    subst hval
    clear hs hc hmem ex
    generalize distances dist es = m at hx hd ⊢
    induction m with
    | nil => simp at hx
    | cons y m ih =>
      simp only [List.map_cons, List.nodup_cons] at hd
      rw [List.filter_cons]
      rcases List.mem_cons.mp hx with rfl | hx
      · rw [if_pos (by simp)]
        congr 1
        rw [List.filter_eq_nil_iff]
        intro z hz c
        replace c := of_decide_eq_true c
        exact hd.1 (c ▸ List.mem_map.mpr ⟨z, hz, rfl⟩)
      · have : y.1 ≠ minmax a b := fun c => hd.1 (c ▸ List.mem_map.mpr ⟨_, hx, rfl⟩)
        rw [if_neg (fun c => this (of_decide_eq_true c))]
        exact ih hx hd.2
  · intro x hx
    obtain ⟨⟨e1, e2⟩, he, ⟨f1, f2⟩, hf, hne, rfl⟩ := hs x hx
    unfold minmax
    simp only at hne ⊢
    split
    · rename_i h; exact ⟨f1, f2, e1, e2, hf, he, h, by rw [symm]⟩
    · rename_i h; exact ⟨e1, e2, f1, f2, he, hf, lt_of_le_of_ne (not_lt.mp h) hne, rfl⟩

/-- Three entities on a line. -/
example : distances (fun p q : Int => (p - q) * (p - q)) [(3, 0), (1, 5), (2, 7)] =
    [((1, 3), 25), ((2, 3), 49), ((1, 2), (4 : Int))] := by decide +kernel

end Verif.Registry
