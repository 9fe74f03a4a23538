import Verif.Condition.Lemmas
import Mathlib.Data.Nat.Basic
/-
C09-C13: conditions and triggers.
-/
namespace Verif.Condition

variable {T : Type} [LinearOrder T]

/-! ### C09 -/

/-- Raw values taken at strictly increasing times. -/
def Increasing (xs : List (Sample T)) : Prop := xs.Pairwise fun a b => a.time < b.time

theorem Increasing.sorted {xs : List (Sample T)} (h : Increasing xs) : Sorted xs :=
  List.Pairwise.imp le_of_lt h

theorem Increasing.visible_last {ys : List (Sample T)} {x : Sample T} (h : Increasing (ys ++ [x])) :
    visible x.time (ys ++ [x]) = x.result :: (ys.map Sample.result).reverse := by
  have : (ys ++ [x]).filter (fun y => decide (y.time ≤ x.time)) = ys ++ [x] := by
    rw [List.filter_eq_self]
    intro y hy
    rcases List.mem_append.1 hy with hy | hy
    · simpa using le_of_lt ((List.pairwise_append.1 h).2.2 y hy x (by simp))
    · simp at hy; simp [hy]
  rw [visible, this]; simp

/-- **C09, none.** The value is the current raw value. -/
theorem C09_none {ys : List (Sample T)} {x : Sample T} (h : Increasing (ys ++ [x])) :
    (run id .none (ys ++ [x])).cur = x.result := by
  have := (run_inv monotone_id .none h.sorted).value
  rw [specValue_snoc id (by decide)] at this
  simp only [id, h.visible_last, edgeOf] at this
  exact Bool.eq_iff_iff.2 this

/-- **C09.** Rising, falling and either edge are false on the first evaluation. -/
theorem C09_first_evaluation (e : Edge) (he : e = .rising ∨ e = .falling ∨ e = .risingOrFalling)
    (x : Sample T) : (run id e [x]).cur = false := by
  have h1 : List.findIdx (fun y : Sample T => decide (x.time < y.time)) [x] ≤ 1 :=
    List.findIdx_le_length
  have h2 : ¬ 2 ≤ List.findIdx (fun y : Sample T => decide (x.time < y.time)) [x] := by omega
  rcases he with rfl | rfl | rfl <;>
    exact congrArg State.cur (if_neg h2)

/-- **C09.** Rising, falling and either edge compare the current with the previous raw value. -/
theorem C09_edges {zs : List (Sample T)} {y x : Sample T} (h : Increasing (zs ++ [y] ++ [x])) :
    (run id .rising (zs ++ [y] ++ [x])).cur = (x.result && !y.result) ∧
    (run id .falling (zs ++ [y] ++ [x])).cur = (!x.result && y.result) ∧
    (run id .risingOrFalling (zs ++ [y] ++ [x])).cur = (x.result != y.result) := by
  refine ⟨?_, ?_, ?_⟩ <;>
  · rw [Bool.eq_iff_iff, (run_inv monotone_id _ h.sorted).value, specValue_snoc id (by decide)]
    simp only [id, h.visible_last]
    simp [edgeOf]

/-- **C09, sticky.** True iff some raw value so far was true. -/
theorem C09_sticky {xs : List (Sample T)} (h : Increasing xs) :
    (run id .sticky xs).cur = xs.any Sample.result := by
  rw [Bool.eq_iff_iff, (run_inv monotone_id _ h.sorted).value]
  simp only [List.any_eq_true]
  constructor
  · rintro ⟨p, ⟨t, rfl⟩, hp⟩
    rcases List.eq_nil_or_concat p with rfl | ⟨q, z, rfl⟩
    · simp [newestVisible] at hp
    · rw [List.concat_eq_append] at *
      have hq : Increasing (q ++ [z]) := (List.pairwise_append.1 h).1
      rw [newestVisible_snoc, id, hq.visible_last] at hp
      exact ⟨z, by simp, by simpa using hp⟩
  · rintro ⟨z, hz, hr⟩
    obtain ⟨q, t, rfl⟩ := List.append_of_mem hz
    have heq : q ++ z :: t = (q ++ [z]) ++ t := by simp
    rw [heq] at h ⊢
    have hq : Increasing (q ++ [z]) := (List.pairwise_append.1 h).1
    exact ⟨q ++ [z], List.prefix_append _ _, by rw [newestVisible_snoc, id, hq.visible_last]; simp [hr]⟩

example : Increasing [(⟨0, false⟩ : Sample Nat), ⟨1, true⟩, ⟨2, true⟩, ⟨3, false⟩] ∧
    (List.range 5).map (fun n =>
      (run id .rising ([(⟨0, false⟩ : Sample Nat), ⟨1, true⟩, ⟨2, true⟩, ⟨3, false⟩].take n)).cur)
      = [false, false, true, false, false] := by
  unfold Increasing
  decide

/-! ### C10 -/

/-- **C10.** For every delay (any monotone `now ↦ now - delay`), edge and sample sequence in time
order, the reported value is the one computed from all samples ever taken. -/
theorem C10_delay {cutoff : T → T} (hm : Monotone cutoff) (e : Edge) {xs : List (Sample T)}
    (hs : Sorted xs) : (run cutoff e xs).cur = true ↔ specValue cutoff e xs :=
  (run_inv hm e hs).value

/-- A delay of 2 on natural-number times: the rising edge at time 1 is reported at time 3. -/
example : Monotone (fun t : Nat => t - 2) ∧
    Sorted [(⟨0, false⟩ : Sample Nat), ⟨1, true⟩, ⟨2, true⟩, ⟨3, false⟩] ∧
    (List.range 5).map (fun n => (run (fun t => t - 2) .rising
      ([(⟨0, false⟩ : Sample Nat), ⟨1, true⟩, ⟨2, true⟩, ⟨3, false⟩].take n)).cur)
      = [false, false, false, false, true] := by
  refine ⟨fun a b h => by simp only; omega, ?_, by decide⟩
  unfold Sorted
  decide

/-- **C10.** A sticky condition stays true once it has been true. -/
theorem C10_sticky_stays {cutoff : T → T} (hm : Monotone cutoff) {xs ys : List (Sample T)}
    (hs : Sorted (xs ++ ys)) (h : (run cutoff .sticky xs).cur = true) :
    (run cutoff .sticky (xs ++ ys)).cur = true := by
  rw [C10_delay hm _ hs]
  obtain ⟨p, hp, h⟩ := (C10_delay hm _ hs.left).1 h
  exact ⟨p, hp.trans (List.prefix_append _ _), h⟩

/-! ### C11 -/

/-- **C11.** The samples kept are the newest ones, and at most the samples newer than the cut-off
plus as many as the edge needs. -/
theorem C11_history {cutoff : T → T} (hm : Monotone cutoff) (e : Edge) {ys : List (Sample T)}
    {x : Sample T} (hs : Sorted (ys ++ [x])) :
    (run cutoff e (ys ++ [x])).hist <:+ ys ++ [x] ∧
    (run cutoff e (ys ++ [x])).hist.length ≤
      ((ys ++ [x]).filter fun y => cutoff x.time < y.time).length + e.arity := by
  obtain ⟨d, hd, hd'⟩ := (run_inv hm e hs).split
  refine ⟨⟨d, hd.symm⟩, ?_⟩
  rw [run_snoc]
  have hI := run_inv hm e hs.left
  obtain ⟨d0, hd0, -⟩ := hI.split
  generalize hst : run cutoff e ys = s at *
  have hsh : Sorted (s.hist ++ [x]) := by
    have : ys ++ [x] = d0 ++ (s.hist ++ [x]) := by rw [hd0]; simp
    rw [this] at hs; exact hs.right
  have hk := seen_eq_findIdx (c := cutoff x.time) hsh
  have hsplit : (s.hist ++ [x]).length = seen (cutoff x.time) (s.hist ++ [x]) +
      ((s.hist ++ [x]).filter fun y => cutoff x.time < y.time).length := by
    unfold seen
    rw [← List.countP_eq_length_filter, ← List.countP_eq_length_filter,
      List.length_eq_countP_add_countP (fun y => decide (y.time ≤ cutoff x.time))]
    congr 1
    apply List.countP_congr
    intro y _
    by_cases h : y.time ≤ cutoff x.time
    · simp [h]
    · simp [not_le.1 h]
  have hsub : ((s.hist ++ [x]).filter fun y => decide (cutoff x.time < y.time)).length ≤
      ((ys ++ [x]).filter fun y => decide (cutoff x.time < y.time)).length := by
    rw [hd0]; simp
  simp only [step]
  split
  · rename_i har
    rw [List.length_drop]
    have hk' : List.findIdx (fun y : Sample T => decide (cutoff x.time < y.time))
      (s.hist ++ [(⟨x.time, x.result⟩ : Sample T)]) = seen (cutoff x.time) (s.hist ++ [x]) := hk.symm
    rw [hk'] at har ⊢
    have : (s.hist ++ [(⟨x.time, x.result⟩ : Sample T)]).length = (s.hist ++ [x]).length := rfl
    omega
  · rename_i har
    have hk' : List.findIdx (fun y : Sample T => decide (cutoff x.time < y.time))
      (s.hist ++ [(⟨x.time, x.result⟩ : Sample T)]) = seen (cutoff x.time) (s.hist ++ [x]) := hk.symm
    rw [hk'] at har
    show (s.hist ++ [(⟨x.time, x.result⟩ : Sample T)]).length ≤ _
    have : (s.hist ++ [(⟨x.time, x.result⟩ : Sample T)]).length = (s.hist ++ [x]).length := rfl
    omega

/-- With a delay of 2 time units three samples are kept for a rising edge out of six. -/
example : (run (fun t => t - 2) .rising ((List.range 6).map fun i => (⟨i, true⟩ : Sample Nat))).hist.length = 4 := by
  decide

/-! ### C12 -/

/-- **C12.** One evaluation of a trigger samples every condition exactly once, in order, whatever
the other values are. -/
theorem C12_samples_every_condition (raw : Nat → Bool) (now : T) (t : Trigger T) :
    (t.eval raw now).2 = t.groups.flatMap fun g => g.conds.map Cond.id := by
  rw [Trigger.eval_eq]

theorem Trigger.after_groups (gs : List (List (Decl T))) (fs : List (Frame T)) :
    (Trigger.after gs fs).groups.map Group.conds =
      gs.map fun g => g.map fun d => ⟨d.id, d.edge, d.cutoff, run d.cutoff d.edge (samples d.id fs)⟩ := by
  obtain ⟨n, hn⟩ : ∃ n, fs.length = n := ⟨_, rfl⟩
  induction n generalizing fs with
  | zero =>
    rw [List.length_eq_zero_iff.1 hn]
    simp [Trigger.after, Trigger.fresh, samples, run]
  | succ n ih =>
    rcases List.eq_nil_or_concat fs with rfl | ⟨fs, f, rfl⟩
    · simp at hn
    · rw [List.concat_eq_append] at *
      have ih := ih fs (by simpa using hn)
      have h1 : Trigger.after gs (fs ++ [f]) = ((Trigger.after gs fs).eval f.raw f.now).1 := by
        simp [Trigger.after]
      rw [h1, Trigger.eval_eq]
      simp only [List.map_map]
      have h2 : (Group.conds ∘ fun g : Group T => (g.eval f.raw f.now).1) =
          (fun cs : List (Cond T) => cs.map fun c => c.eval f.now (f.raw c.id)) ∘ Group.conds := by
        funext g; simp [Group.eval_eq]
      rw [h2, ← List.map_map, ih]
      simp only [List.map_map]
      apply List.map_congr_left
      intro g _
      simp only [Function.comp, List.map_map]
      apply List.map_congr_left
      intro d _
      simp only [Function.comp, Cond.eval, samples, List.map_append, List.map_cons, List.map_nil]
      rw [run_snoc]

/-- **C12.** After any number of evaluations in time order, a trigger is true iff some group has all
its conditions true, each condition having its specified value (C10) over *all* evaluations of the
trigger. In particular a trigger without groups is false and a group without conditions is true. -/
theorem C12_trigger_value (gs : List (List (Decl T))) (hm : ∀ g ∈ gs, ∀ d ∈ g, Monotone d.cutoff)
    (fs : List (Frame T)) (f : Frame T)
    (hs : (fs ++ [f]).Pairwise fun a b => a.now ≤ b.now) :
    (Trigger.after gs (fs ++ [f])).cur = true ↔
      ∃ g ∈ gs, ∀ d ∈ g, specValue d.cutoff d.edge (samples d.id (fs ++ [f])) := by
  have hval : (Trigger.after gs (fs ++ [f])).cur =
      ((Trigger.after gs (fs ++ [f])).groups.map Group.conds).any
        (fun cs => cs.all fun c => c.st.cur) := by
    have h1 : Trigger.after gs (fs ++ [f]) = ((Trigger.after gs fs).eval f.raw f.now).1 := by
      simp [Trigger.after]
    rw [h1, Trigger.eval_eq]
    simp only [List.any_map]
    congr 1
    funext g
    simp [Group.eval_eq]
  have hsorted : ∀ i, Sorted (samples i (fs ++ [f])) := by
    intro i
    unfold Sorted samples
    rw [List.pairwise_map]
    exact hs
  rw [hval, Trigger.after_groups]
  simp only [List.any_map, List.any_eq_true, Function.comp, List.all_eq_true, List.mem_map,
    forall_exists_index, and_imp, forall_apply_eq_imp_iff₂]
  constructor
  · rintro ⟨g, hg, h⟩
    exact ⟨g, hg, fun d hd => (C10_delay (hm g hg d hd) _ (hsorted _)).1 (h d hd)⟩
  · rintro ⟨g, hg, h⟩
    exact ⟨g, hg, fun d hd => (C10_delay (hm g hg d hd) _ (hsorted _)).2 (h d hd)⟩

/-- Two groups: (rising 0 and 1) or (2 sticky). Condition 0 rises at time 1 while condition 1 is
false; it is sampled nevertheless, so at time 2 there is no rising edge any more. -/
def exTrigger : List (List (Decl Nat)) := [[⟨0, .rising, id⟩, ⟨1, .none, id⟩], [⟨2, .sticky, id⟩]]
def exFrames : List (Frame Nat) :=
  [⟨0, fun _ => false⟩, ⟨1, fun i => i == 0⟩, ⟨2, fun i => i == 0 || i == 1⟩, ⟨3, fun i => i == 2⟩,
   ⟨4, fun _ => false⟩]

example : (∀ g ∈ exTrigger, ∀ d ∈ g, Monotone d.cutoff) ∧
    (exFrames.Pairwise fun a b => a.now ≤ b.now) ∧
    (List.range 6).map (fun n => (Trigger.after exTrigger (exFrames.take n)).cur)
      = [false, false, false, false, true, true] := by
  refine ⟨?_, by decide, by decide⟩
  simp [exTrigger, monotone_id]

/-! ### C13 -/

/-- **C13.** After a trigger evaluated to true the reported group index is in range and is the least
index of a group all of whose conditions are true, so its description is well defined. -/
theorem C13_active_group (raw : Nat → Bool) (now : T) (t t' : Trigger T)
    (ht : t' = (t.eval raw now).1) (h : t'.cur = true) :
    ∃ g, t'.groups[t'.activeIndex]? = some g ∧ (∀ c ∈ g.conds, c.st.cur = true) ∧
      (∀ j g', j < t'.activeIndex → t'.groups[j]? = some g' → ∃ c ∈ g'.conds, c.st.cur = false) ∧
      t'.activeDescription = some (g.conds.map Cond.id) := by
  have hany : t'.groups.any (fun g => g.conds.all fun c => c.st.cur) = true := by
    rw [ht, Trigger.eval_eq] at h ⊢
    simp only [List.any_map] at h ⊢
    rw [← h]
    congr 1
    funext g
    simp [Group.eval_eq]
  have hlt : t'.activeIndex < t'.groups.length := List.findIdx_lt_length.2 (by simpa using hany)
  refine ⟨t'.groups[t'.activeIndex], by simp [hlt], ?_, ?_, ?_⟩
  · have := List.findIdx_getElem (p := fun g : Group T => g.conds.all fun c => c.st.cur)
      (xs := t'.groups) (w := hlt)
    rw [List.all_eq_true] at this
    exact this
  · intro j g' hj hg'
    have hj' : j < t'.groups.length := by omega
    have := List.not_of_lt_findIdx (p := fun g : Group T => g.conds.all fun c => c.st.cur)
      (xs := t'.groups) hj
    rw [List.getElem?_eq_getElem hj'] at hg'
    cases hg'
    simpa using this
  · simp [Trigger.activeDescription, hlt]

/-- **C13.** After a trigger evaluated to false no group is reported: the index is the number of
groups. -/
theorem C13_no_active_group (raw : Nat → Bool) (now : T) (t t' : Trigger T)
    (ht : t' = (t.eval raw now).1) (h : t'.cur = false) :
    t'.activeIndex = t'.groups.length ∧ t'.activeDescription = none := by
  have hidx : t'.activeIndex = t'.groups.length := by
    unfold Trigger.activeIndex
    rw [List.findIdx_eq_length]
    rw [ht, Trigger.eval_eq] at h ⊢
    simp only [List.any_map] at h
    intro g hg
    obtain ⟨g0, hg0, rfl⟩ := List.mem_map.1 hg
    have := (List.any_eq_false.1 h) g0 hg0
    simp only [Group.eval_eq, Function.comp] at this ⊢
    simpa using this
  exact ⟨hidx, by simp [Trigger.activeDescription, hidx]⟩

example : (Trigger.after exTrigger exFrames).cur = true ∧
    (Trigger.after exTrigger exFrames).activeIndex = 1 := by decide

end Verif.Condition
