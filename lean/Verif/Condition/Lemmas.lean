import Verif.Condition.Spec
/-
Helper lemmas: the pruned history agrees with the full history as far as the edge can see.
-/
namespace Verif.Condition

variable {T : Type} [LinearOrder T]

theorem Sorted.take_findIdx {c : T} : ∀ {h : List (Sample T)}, Sorted h →
    h.filter (fun x => decide (x.time ≤ c)) = h.take (h.findIdx fun x => decide (c < x.time))
  | [], _ => rfl
  | a :: l, hs => by
    have hs' := List.pairwise_cons.1 hs
    by_cases ha : a.time ≤ c
    · have : ¬ c < a.time := not_lt.2 ha
      simp [List.findIdx_cons, ha, this, Sorted.take_findIdx hs'.2]
    · have h1 : c < a.time := not_le.1 ha
      simp only [List.filter_cons, ha, decide_false, List.findIdx_cons, h1, decide_true,
        cond_true, List.take_zero, Bool.false_eq_true, if_false]
      rw [List.filter_eq_nil_iff]
      intro b hb
      have := hs'.1 b hb
      simpa using lt_of_lt_of_le h1 this

theorem Sorted.right {a b : List (Sample T)} (h : Sorted (a ++ b)) : Sorted b :=
  (List.pairwise_append.1 h).2.1

theorem Sorted.left {a b : List (Sample T)} (h : Sorted (a ++ b)) : Sorted a :=
  (List.pairwise_append.1 h).1

/-- Number of samples of `h` not later than `c`. -/
def seen (c : T) (h : List (Sample T)) : Nat := (h.filter fun x => decide (x.time ≤ c)).length

theorem seen_mono {c c' : T} (hc : c ≤ c') : ∀ h : List (Sample T), seen c h ≤ seen c' h
  | [] => Nat.le_refl _
  | a :: l => by
    have := seen_mono hc l
    unfold seen at *
    by_cases h1 : a.time ≤ c
    · have h2 : a.time ≤ c' := le_trans h1 hc
      simp [h1, h2, this]
    · by_cases h2 : a.time ≤ c' <;> simp [h1, h2] <;> omega

theorem seen_append (c : T) (a b : List (Sample T)) : seen c (a ++ b) = seen c a + seen c b := by
  simp [seen]

theorem seen_eq_findIdx {c : T} {h : List (Sample T)} (hs : Sorted h) :
    seen c h = h.findIdx fun x => decide (c < x.time) := by
  unfold seen
  rw [hs.take_findIdx, List.length_take]
  have := List.findIdx_le_length (xs := h) (p := fun x => decide (c < x.time))
  omega

theorem visible_length (c : T) (h : List (Sample T)) : (visible c h).length = seen c h := by
  simp [visible, seen]

theorem visible_append (c : T) (a b : List (Sample T)) :
    visible c (a ++ b) = visible c b ++ visible c a := by
  simp [visible]

theorem visible_getElem? {c : T} {h : List (Sample T)} (hs : Sorted h) {i : Nat}
    (hi : i < seen c h) : (visible c h)[i]? = some (resultAt h (seen c h - 1 - i)) := by
  have hk := seen_eq_findIdx (c := c) hs
  have hle : seen c h ≤ h.length := by unfold seen; exact List.length_filter_le _ _
  unfold visible
  rw [hs.take_findIdx, ← hk, List.getElem?_reverse (by simp; omega)]
  have hlt : seen c h - 1 - i < h.length := by omega
  have hlen : ((h.take (seen c h)).map Sample.result).length = seen c h := by
    simp; omega
  rw [hlen]
  simp only [resultAt, List.getElem?_map, List.getElem?_take]
  rw [if_pos (by omega), List.getElem?_eq_getElem hlt]
  rfl

/-- The invariant of `run`: the history is a suffix of all samples, dropped samples are visible,
and if something was dropped enough visible samples are kept. -/
structure Inv (cutoff : T → T) (e : Edge) (xs : List (Sample T)) (s : State T) : Prop where
  split : ∃ d, xs = d ++ s.hist ∧ ∀ x, xs.getLast? = some x →
    (∀ y ∈ d, y.time ≤ cutoff x.time) ∧ (d ≠ [] → e.arity ≤ seen (cutoff x.time) s.hist)
  value : s.cur = true ↔ specValue cutoff e xs

theorem newestVisible_snoc (cutoff : T → T) (xs : List (Sample T)) (x : Sample T) :
    newestVisible cutoff (xs ++ [x]) = (visible (cutoff x.time) (xs ++ [x])).head? := by
  simp [newestVisible]

theorem prefix_snoc {α} {p xs : List α} {x : α} : p <+: xs ++ [x] ↔ p = xs ++ [x] ∨ p <+: xs := by
  rw [List.prefix_concat_iff]

theorem specValue_sticky_snoc (cutoff : T → T) (xs : List (Sample T)) (x : Sample T) :
    specValue cutoff .sticky (xs ++ [x]) ↔
      specValue cutoff .sticky xs ∨ (visible (cutoff x.time) (xs ++ [x])).head? = some true := by
  unfold specValue
  constructor
  · rintro ⟨p, hp, h⟩
    rcases prefix_snoc.1 hp with rfl | hp
    · right; rwa [newestVisible_snoc] at h
    · left; exact ⟨p, hp, h⟩
  · rintro (⟨p, hp, h⟩ | h)
    · exact ⟨p, prefix_snoc.2 (Or.inr hp), h⟩
    · exact ⟨_, List.prefix_rfl, by rwa [newestVisible_snoc]⟩

theorem specValue_snoc (cutoff : T → T) {e : Edge} (he : e ≠ .sticky) (xs : List (Sample T))
    (x : Sample T) :
    specValue cutoff e (xs ++ [x]) ↔ edgeOf e (visible (cutoff x.time) (xs ++ [x])) = true := by
  cases e <;> simp_all [specValue]

theorem not_specValue_of_unseen {cutoff : T → T} (hm : Monotone cutoff) {xs : List (Sample T)}
    (hs : Sorted xs) {x : Sample T} (hx : xs.getLast? = some x)
    (h : seen (cutoff x.time) xs = 0) : ¬ specValue cutoff .sticky xs := by
  rintro ⟨p, hp, h2⟩
  obtain ⟨t, rfl⟩ := hp
  unfold newestVisible at h2
  split at h2
  · exact absurd h2 (by simp)
  · rename_i y hy
    have hyx : y.time ≤ x.time := by
      rcases List.eq_nil_or_concat t with rfl | ⟨t', z, rfl⟩
      · simp only [List.append_nil] at hx; rw [hx] at hy; cases hy; exact le_rfl
      · have hzx : z = x := by simpa using hx
        subst hzx
        have hyp : y ∈ p := List.mem_of_getLast? hy
        exact (List.pairwise_append.1 hs).2.2 y hyp z (by simp)
    have h3 : seen (cutoff y.time) p = 0 := by
      have h4 := seen_mono (hm hyx) p
      rw [seen_append] at h
      omega
    rw [← visible_length] at h3
    rw [List.length_eq_zero_iff.1 h3] at h2
    exact absurd h2 (by simp)

theorem seen_drop {c : T} {h : List (Sample T)} (hs : Sorted h) (n : Nat) (hn : n ≤ seen c h) :
    seen c (h.drop n) = seen c h - n ∧ ∀ y ∈ h.take n, y.time ≤ c := by
  have hk := seen_eq_findIdx (c := c) hs
  have hall : ∀ y ∈ h.take n, y.time ≤ c := by
    intro y hy
    have : y ∈ h.take (seen c h) := (List.take_subset_take_left h hn) hy
    rw [hk, ← hs.take_findIdx] at this
    simpa using (List.mem_filter.1 this).2
  refine ⟨?_, hall⟩
  have h1 : seen c h = seen c (h.take n) + seen c (h.drop n) := by
    rw [← seen_append, List.take_append_drop]
  have hle : seen c h ≤ h.length := by unfold seen; exact List.length_filter_le _ _
  have h2 : seen c (h.take n) = n := by
    unfold seen
    rw [List.filter_eq_self.2 (by simpa using hall), List.length_take]; omega
  omega

theorem edgeOf_apply {e : Edge} (he : e ≠ .sticky) (cur : Bool) {l : List Bool} {a b : Bool}
    (h0 : l[0]? = some a) (h1 : e.arity = 2 → l[1]? = some b) :
    edgeOf e l = e.apply cur a b := by
  cases l with
  | nil => simp at h0
  | cons x l =>
    simp at h0; subst h0
    cases e
    · rfl
    all_goals
      first
      | exact absurd rfl he
      | (have := h1 rfl
         cases l with
         | nil => simp at this
         | cons y l => simp at this; subst this; rfl)

theorem edgeOf_short {e : Edge} {l : List Bool} (h : l.length < e.arity) : edgeOf e l = false := by
  match e, l with
  | .none, [] => rfl
  | .sticky, [] => rfl
  | .rising, [] => rfl
  | .falling, [] => rfl
  | .risingOrFalling, [] => rfl
  | .rising, [_] => rfl
  | .falling, [_] => rfl
  | .risingOrFalling, [_] => rfl
  | .none, _ :: _ => simp [Edge.arity] at h
  | .sticky, _ :: _ => simp [Edge.arity] at h
  | .rising, _ :: _ :: _ => simp [Edge.arity] at h; omega
  | .falling, _ :: _ :: _ => simp [Edge.arity] at h; omega
  | .risingOrFalling, _ :: _ :: _ => simp [Edge.arity] at h; omega

theorem Inv.step {cutoff : T → T} (hm : Monotone cutoff) {e : Edge} {xs : List (Sample T)}
    {s : State T} (h : Inv cutoff e xs s) (x : Sample T) (hs : Sorted (xs ++ [x])) :
    Inv cutoff e (xs ++ [x]) (step cutoff e s x.time x.result) := by
  obtain ⟨⟨d, hd, hdr⟩, hv⟩ := h
  let h' := s.hist ++ [x]
  let c := cutoff x.time
  have hxs : xs ++ [x] = d ++ h' := by simp [h', hd]
  have hsh : Sorted h' := by rw [hxs] at hs; exact hs.right
  have hdall : ∀ y ∈ d, y.time ≤ c := by
    intro y hy
    cases hl : xs.getLast? with
    | none => rw [List.getLast?_eq_none_iff] at hl; simp [hl] at hd; simp [hd.1] at hy
    | some z =>
      refine le_trans ((hdr z hl).1 y hy) (hm ?_)
      exact (List.pairwise_append.1 hs).2.2 z (List.mem_of_getLast? hl) x (by simp)
  have hdne : d ≠ [] → e.arity ≤ seen c h' := by
    intro hne
    cases hl : xs.getLast? with
    | none => rw [List.getLast?_eq_none_iff] at hl; simp [hl] at hd; exact absurd hd.1 hne
    | some z =>
      have h1 := (hdr z hl).2 hne
      have h2 : cutoff z.time ≤ c :=
        hm ((List.pairwise_append.1 hs).2.2 z (List.mem_of_getLast? hl) x (by simp))
      have h3 := seen_mono h2 s.hist
      have h4 : seen c h' = seen c s.hist + seen c [x] := seen_append _ _ _
      omega
  have hk : List.findIdx (fun y : Sample T => decide (cutoff x.time < y.time))
      (s.hist ++ [(⟨x.time, x.result⟩ : Sample T)])
      = seen c h' := (seen_eq_findIdx hsh).symm
  have hvis : visible c (xs ++ [x]) = visible c h' ++ visible c d := by
    rw [hxs, visible_append]
  by_cases har : e.arity ≤ seen c h'
  · have hst : Condition.step cutoff e s x.time x.result =
        { cur := e.apply s.cur (resultAt h' (seen c h' - 1)) (resultAt h' (seen c h' - 2))
          hist := h'.drop (seen c h' - e.arity) } := by
      unfold Condition.step
      simp only [hk]
      rw [if_pos har]
    rw [hst]
    have hpos : 1 ≤ e.arity := by cases e <;> simp [Edge.arity]
    have hsd := seen_drop (c := c) hsh (seen c h' - e.arity) (by omega)
    constructor
    · refine ⟨d ++ h'.take (seen c h' - e.arity), ?_, ?_⟩
      · rw [List.append_assoc, List.take_append_drop, hxs]
      · intro y hy
        have : y = x := by simpa using hy.symm
        subst this
        refine ⟨?_, ?_⟩
        · intro y hy
          rcases List.mem_append.1 hy with hy | hy
          · exact hdall y hy
          · exact hsd.2 y hy
        · intro _
          show e.arity ≤ seen c _
          rw [hsd.1]; omega
    · have g0 : (visible c (xs ++ [x]))[0]? = some (resultAt h' (seen c h' - 1)) := by
        rw [hvis, List.getElem?_append_left (by rw [visible_length]; omega),
          visible_getElem? hsh (by omega)]
        rfl
      by_cases he : e = .sticky
      · subst he
        rw [specValue_sticky_snoc, ← hv]
        have : (visible (cutoff x.time) (xs ++ [x])).head? = some (resultAt h' (seen c h' - 1)) := by
          rw [List.head?_eq_getElem?]; exact g0
        rw [this]
        simp [Edge.apply]
      · rw [specValue_snoc cutoff he, edgeOf_apply he s.cur g0 (b := resultAt h' (seen c h' - 2))]
        intro h2
        rw [hvis, List.getElem?_append_left (by rw [visible_length]; omega),
          visible_getElem? hsh (by omega)]
        congr 2
  · have hst : Condition.step cutoff e s x.time x.result = { cur := false, hist := h' } := by
      unfold Condition.step
      simp only [hk]
      rw [if_neg har]
    rw [hst]
    have hd0 : d = [] := by
      by_contra hne
      exact har (hdne hne)
    subst hd0
    constructor
    · exact ⟨[], by simpa using hxs, fun y _ => ⟨by simp, by simp⟩⟩
    · have hlen : (visible c (xs ++ [x])).length < e.arity := by
        rw [hvis, List.length_append, visible_length]
        simp [visible]; omega
      by_cases he : e = .sticky
      · subst he
        have h0 : seen c (xs ++ [x]) = 0 := by
          rw [visible_length] at hlen; simp [Edge.arity] at hlen; exact hlen
        have := not_specValue_of_unseen hm hs (x := x) (by simp) h0
        simp [this]
      · rw [specValue_snoc cutoff he, edgeOf_short hlen]

theorem Inv.initial (cutoff : T → T) (e : Edge) : Inv cutoff e [] (State.initial : State T) := by
  refine ⟨⟨[], rfl, by simp⟩, ?_⟩
  cases e <;> simp [State.initial, specValue, newestVisible]

theorem run_snoc (cutoff : T → T) (e : Edge) (xs : List (Sample T)) (x : Sample T) :
    run cutoff e (xs ++ [x]) = step cutoff e (run cutoff e xs) x.time x.result := by
  simp [run]

theorem run_inv {cutoff : T → T} (hm : Monotone cutoff) (e : Edge) {xs : List (Sample T)}
    (hs : Sorted xs) : Inv cutoff e xs (run cutoff e xs) := by
  obtain ⟨n, hn⟩ : ∃ n, xs.length = n := ⟨_, rfl⟩
  induction n generalizing xs with
  | zero => rw [List.length_eq_zero_iff.1 hn]; exact Inv.initial cutoff e
  | succ n ih =>
    rcases List.eq_nil_or_concat xs with rfl | ⟨ys, x, rfl⟩
    · simp at hn
    · rw [List.concat_eq_append] at hs hn ⊢
      rw [run_snoc]
      exact (ih hs.left (by simpa using hn)).step hm x hs

/-! ### Triggers -/

theorem evalConds_eq (raw : Nat → Bool) (now : T) (cs : List (Cond T)) (acc : Bool) :
    evalConds raw now acc cs =
      (acc && (cs.map fun c => c.eval now (raw c.id)).all (fun c => c.st.cur),
       cs.map fun c => c.eval now (raw c.id), cs.map Cond.id) := by
  induction cs generalizing acc with
  | nil => simp [evalConds]
  | cons c cs ih => simp [evalConds, ih, Bool.and_assoc]

theorem Group.eval_eq (raw : Nat → Bool) (now : T) (g : Group T) :
    g.eval raw now =
      ({ cur := (g.conds.map fun c => c.eval now (raw c.id)).all (fun c => c.st.cur)
         conds := g.conds.map fun c => c.eval now (raw c.id) }, g.conds.map Cond.id) := by
  simp only [Group.eval, evalConds_eq, Bool.true_and]

theorem evalGroups_eq (raw : Nat → Bool) (now : T) (gs : List (Group T)) (acc : Bool) :
    evalGroups raw now acc gs =
      (acc || (gs.map fun g => (g.eval raw now).1).any (fun g => g.cur),
       gs.map fun g => (g.eval raw now).1, gs.flatMap fun g => g.conds.map Cond.id) := by
  induction gs generalizing acc with
  | nil => simp [evalGroups]
  | cons g gs ih =>
    simp only [evalGroups, ih, Bool.or_assoc, List.map_cons, List.any_cons, List.flatMap_cons]
    simp [Group.eval_eq]

theorem Trigger.eval_eq (raw : Nat → Bool) (now : T) (t : Trigger T) :
    t.eval raw now =
      ({ cur := (t.groups.map fun g => (g.eval raw now).1).any (fun g => g.cur)
         groups := t.groups.map fun g => (g.eval raw now).1 },
       t.groups.flatMap fun g => g.conds.map Cond.id) := by
  simp only [Trigger.eval, evalGroups_eq, Bool.false_or]

end Verif.Condition
