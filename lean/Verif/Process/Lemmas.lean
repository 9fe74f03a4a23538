import Verif.Process.Spec
/-
Invariants of the table of processes.
-/
namespace Verif.Process

structure WF (m : Machine) : Prop where
  keys : (m.procs.map Proc.key).Nodup
  old : ∀ p ∈ m.procs, p.key < m.next
  pids : (m.procs.map Proc.pid).Nodup
  pos : ∀ p ∈ m.procs, 0 < p.pid
  own : ∀ c ∈ m.procs, c.child = true → c.pid ≠ m.own
  grp : ∀ c ∈ m.procs, c.child = true → ∀ p ∈ m.procs, p.group = c.pid → p.origin = c.origin
  orig : ∀ c ∈ m.procs, c.child = true → c.origin = some c.key
  fin : ∀ p ∈ m.procs, ∀ st, p.ended = some st → ∃ e : End, e.valid = true ∧ st = e.status
  stp : ∀ c ∈ m.procs, c.child = true → ∀ st, c.stopped = some st → st % 128 = 127

def ChildK (m : Machine) (n k : Nat) : Prop := ∃ c ∈ m.procs, c.pid = n ∧ c.key = k ∧ c.child = true
def Child (m : Machine) (n : Nat) : Prop := ∃ c ∈ m.procs, c.pid = n ∧ c.child = true
def Gone (m : Machine) (k : Nat) : Prop := k < m.next ∧ ∀ p ∈ m.procs, p.key ≠ k

theorem nodup_inj {l : List Proc} {f : Proc → Nat} (h : (l.map f).Nodup) {a b : Proc} (ha : a ∈ l) (hb : b ∈ l)
    (e : f a = f b) : a = b := by
  induction l with
  | nil => cases ha
  | cons x l ih =>
    rw [List.map_cons, List.nodup_cons] at h
    rcases List.mem_cons.1 ha with h1 | h1 <;> rcases List.mem_cons.1 hb with h2 | h2
    · rw [h1, h2]
    · exact absurd (List.mem_map.2 ⟨b, h2, by rw [← e, h1]⟩) h.1
    · exact absurd (List.mem_map.2 ⟨a, h1, by rw [e, h2]⟩) h.1
    · exact ih h.2 h1 h2

theorem Child.ofK {m : Machine} {n k : Nat} (h : ChildK m n k) : Child m n := by
  obtain ⟨c, hc, h1, _, h3⟩ := h; exact ⟨c, hc, h1, h3⟩

/-- Processes end or change what does not matter. -/
structure Sub (m m' : Machine) : Prop where
  own : m'.own = m.own
  next : m'.next = m.next
  ex : ∃ (f : Proc → Bool) (g : Proc → Proc), m'.procs = (m.procs.filter f).map g ∧ (∀ p, p.child = true → f p = true) ∧
    ∀ p, (g p).pid = p.pid ∧ (g p).key = p.key ∧ (g p).child = p.child ∧ (g p).origin = p.origin ∧
      ((g p).group = p.group ∨ (g p).group = p.pid) ∧
      ((g p).ended = p.ended ∨ ∃ e : End, e.valid = true ∧ (g p).ended = some e.status) ∧
      ∀ st, (g p).stopped = some st → p.stopped = some st ∨ st % 128 = 127

theorem Sub.refl (m m' : Machine) (h1 : m'.own = m.own) (h2 : m'.next = m.next) (h3 : m'.procs = m.procs) : Sub m m' :=
  ⟨h1, h2, fun _ => true, id, by rw [List.filter_eq_self.2 (by simp), List.map_id, h3], fun _ _ => rfl, fun _ => ⟨rfl, rfl, rfl, rfl, .inl rfl, .inl rfl, fun _ h => .inl h⟩⟩

theorem Sub.mem {m m' : Machine} (h : Sub m m') {p : Proc} (hp : p ∈ m'.procs) :
    ∃ q ∈ m.procs, p.pid = q.pid ∧ p.key = q.key ∧ p.child = q.child ∧ p.origin = q.origin ∧ (p.group = q.group ∨ p.group = q.pid) ∧
      (p.ended = q.ended ∨ ∃ e : End, e.valid = true ∧ p.ended = some e.status) ∧
      ∀ st, p.stopped = some st → q.stopped = some st ∨ st % 128 = 127 := by
  obtain ⟨_, _, f, g, e, _, hg⟩ := h
  rw [e] at hp
  obtain ⟨q, hq, rfl⟩ := List.mem_map.1 hp
  exact ⟨q, (List.mem_filter.1 hq).1, hg q⟩

theorem Sub.child {m m' : Machine} (h : Sub m m') {n k : Nat} (hc : ChildK m n k) : ChildK m' n k := by
  obtain ⟨_, _, f, g, e, hf, hg⟩ := h
  obtain ⟨c, hm, h1, h2, h3⟩ := hc
  obtain ⟨g1, g2, g3, _⟩ := hg c
  exact ⟨g c, by rw [e]; exact List.mem_map.2 ⟨c, List.mem_filter.2 ⟨hm, hf c h3⟩, rfl⟩, g1.trans h1, g2.trans h2, g3.trans h3⟩

theorem Sub.gone {m m' : Machine} (h : Sub m m') {k : Nat} (hc : Gone m k) : Gone m' k := by
  refine ⟨h.next ▸ hc.1, fun p hp => ?_⟩
  obtain ⟨q, hq, _, e, _⟩ := h.mem hp
  rw [e]; exact hc.2 q hq

theorem map_sub {m m' : Machine} (h : Sub m m') (F : Proc → Nat) (hF : F = Proc.pid ∨ F = Proc.key)
    (hn : (m.procs.map F).Nodup) : (m'.procs.map F).Nodup := by
  obtain ⟨_, _, f, g, e, hf, hg⟩ := h
  rw [e, List.map_map]
  have : F ∘ g = F := by
    funext p
    obtain ⟨g1, g2, _⟩ := hg p
    rcases hF with rfl | rfl <;> simp [g1, g2]
  rw [this]
  exact hn.sublist ((List.filter_sublist (l := m.procs)).map F)

theorem Sub.wf {m m' : Machine} (h : Sub m m') (w : WF m) : WF m' := by
  constructor
  · exact map_sub h _ (.inr rfl) w.keys
  · intro p hp; obtain ⟨q, hq, e⟩ := h.mem hp; rw [e.2.1, h.next]; exact w.old q hq
  · exact map_sub h _ (.inl rfl) w.pids
  · intro p hp; obtain ⟨q, hq, e⟩ := h.mem hp; rw [e.1]; exact w.pos q hq
  · intro p hp hc; obtain ⟨q, hq, e⟩ := h.mem hp; rw [e.1, h.own]; exact w.own q hq (e.2.2.1 ▸ hc)
  · intro c hc hch p hp hg
    obtain ⟨c', hc', e1, e2, e3, e4, e5⟩ := h.mem hc
    obtain ⟨p', hp', f1, f2, f3, f4, f5, _⟩ := h.mem hp
    rw [f4, e4]
    rcases f5 with f5 | f5
    · exact w.grp c' hc' (e3 ▸ hch) p' hp' (by rw [← f5, hg, e1])
    · rw [nodup_inj w.pids hp' hc' (by rw [← f5, hg, e1])]
  · intro c hc hch
    obtain ⟨c', hc', e1, e2, e3, e4, e5⟩ := h.mem hc
    rw [e4, e2]; exact w.orig c' hc' (e3 ▸ hch)
  · intro p hp st hst
    obtain ⟨q, hq, _, _, _, _, _, e, _⟩ := h.mem hp
    rcases e with e | ⟨e, h1, h2⟩
    · exact w.fin q hq st (e ▸ hst)
    · rw [h2] at hst; injection hst with hst; exact ⟨e, h1, hst.symm⟩
  · intro p hp hc st hst
    obtain ⟨q, hq, _, _, e3, _, _, _, e⟩ := h.mem hp
    rcases e st hst with e | e
    · exact w.stp q hq (e3 ▸ hc) st e
    · exact e

/-- A new process. -/
theorem grow {m m' : Machine} {p : Proc} (h1 : m'.own = m.own) (h2 : m'.next = m.next + 1) (h3 : m'.procs = m.procs ++ [p])
    (hk : p.key = m.next) (hf : m.free p.pid = true) (w : WF m) (he : p.ended = none) (hs : p.stopped = none)
    (hg : (p.child = true ∧ p.group = m.own ∧ p.origin = some p.key) ∨
      (p.child = false ∧ ∃ q ∈ m.procs, p.group = q.group ∧ p.origin = q.origin)) : WF m' := by
  simp only [Machine.free, Bool.and_eq_true, decide_eq_true_eq, bne_iff_ne, ne_eq, List.all_eq_true] at hf
  obtain ⟨⟨⟨f1, f2⟩, f3⟩, f4⟩ := hf
  constructor
  · rw [h3, List.map_append, List.nodup_append]
    refine ⟨w.keys, by simp, ?_⟩
    intro a ha b hb
    obtain ⟨q, hq, rfl⟩ := List.mem_map.1 ha
    simp only [List.map_cons, List.map_nil, List.mem_singleton] at hb
    rw [hb, hk]; exact Nat.ne_of_lt (w.old q hq)
  · intro q hq; rw [h3] at hq; rw [h2]
    rcases List.mem_append.1 hq with hq | hq
    · exact Nat.lt_succ_of_lt (w.old q hq)
    · rw [List.mem_singleton.1 hq, hk]; exact Nat.lt_succ_self _
  · rw [h3, List.map_append, List.nodup_append]
    refine ⟨w.pids, by simp, ?_⟩
    intro a ha b hb
    obtain ⟨q, hq, rfl⟩ := List.mem_map.1 ha
    simp only [List.map_cons, List.map_nil, List.mem_singleton] at hb
    rw [hb]; exact (f4 q hq).1
  · intro q hq; rw [h3] at hq
    rcases List.mem_append.1 hq with hq | hq
    · exact w.pos q hq
    · rw [List.mem_singleton.1 hq]; exact f1
  · intro q hq hc; rw [h3] at hq; rw [h1]
    rcases List.mem_append.1 hq with hq | hq
    · exact w.own q hq hc
    · rw [List.mem_singleton.1 hq]; exact f3
  · intro c hc hch q hq e
    rw [h3] at hc hq
    rcases List.mem_append.1 hc with hc | hc <;> rcases List.mem_append.1 hq with hq | hq
    · exact w.grp c hc hch q hq e
    · rw [List.mem_singleton.1 hq] at e ⊢
      rcases hg with hg | ⟨_, r, hr, g1, g2⟩
      · exact absurd (hg.2.1 ▸ e).symm (w.own c hc hch)
      · rw [g2]; exact w.grp c hc hch r hr (g1 ▸ e)
    · rw [List.mem_singleton.1 hc] at e
      exact absurd e (f4 q hq).2
    · rw [List.mem_singleton.1 hc, List.mem_singleton.1 hq]
  · intro c hc hch
    rw [h3] at hc
    rcases List.mem_append.1 hc with hc | hc
    · exact w.orig c hc hch
    · rw [List.mem_singleton.1 hc] at hch ⊢
      rcases hg with hg | hg
      · exact hg.2.2
      · rw [hg.1] at hch; cases hch
  · intro q hq st hst
    rw [h3] at hq
    rcases List.mem_append.1 hq with hq | hq
    · exact w.fin q hq st hst
    · rw [List.mem_singleton.1 hq, he] at hst; cases hst
  · intro q hq hc st hst
    rw [h3] at hq
    rcases List.mem_append.1 hq with hq | hq
    · exact w.stp q hq hc st hst
    · rw [List.mem_singleton.1 hq, hs] at hst; cases hst

theorem grow_child {m m' : Machine} {p : Proc} (h3 : m'.procs = m.procs ++ [p]) {n k : Nat} (h : ChildK m n k) : ChildK m' n k := by
  obtain ⟨c, hc, h⟩ := h
  exact ⟨c, by rw [h3]; exact List.mem_append_left _ hc, h⟩

theorem grow_gone {m m' : Machine} {p : Proc} (h2 : m'.next = m.next + 1) (h3 : m'.procs = m.procs ++ [p]) (hk : p.key = m.next)
    {k : Nat} (h : Gone m k) : Gone m' k := by
  refine ⟨by rw [h2]; exact Nat.lt_succ_of_lt h.1, fun q hq => ?_⟩
  rw [h3] at hq
  rcases List.mem_append.1 hq with hq | hq
  · exact h.2 q hq
  · rw [List.mem_singleton.1 hq, hk]; exact Nat.ne_of_gt h.1

/-! ### The calls -/

theorem sub_terminate (m : Machine) (w : Proc → Bool) (e : End) (he : e.valid = true) : Sub m (m.terminate w e.status) := by
  refine ⟨rfl, rfl, _, _, rfl, fun p hp => by simp [hp], fun p => ?_⟩
  split
  · exact ⟨rfl, rfl, rfl, rfl, .inl rfl, .inr ⟨e, he, rfl⟩, fun _ h => .inl h⟩
  · exact ⟨rfl, rfl, rfl, rfl, .inl rfl, .inl rfl, fun _ h => .inl h⟩

theorem sub_killpg (m : Machine) (g : Nat) : Sub m (m.killpg g) := by
  obtain ⟨h1, h2, h3⟩ := sub_terminate m (fun p => p.group == g) (.killed 9 false) rfl
  exact ⟨h1, h2, h3⟩

theorem sub_kill (m : Machine) (t : Int) : Sub m (m.kill t).1 := Sub.refl _ _ rfl rfl rfl

theorem sub_map (m : Machine) (g : Proc → Proc)
    (hg : ∀ p, (g p).pid = p.pid ∧ (g p).key = p.key ∧ (g p).child = p.child ∧ (g p).origin = p.origin ∧
      ((g p).group = p.group ∨ (g p).group = p.pid) ∧
      ((g p).ended = p.ended ∨ ∃ e : End, e.valid = true ∧ (g p).ended = some e.status) ∧
      ∀ st, (g p).stopped = some st → p.stopped = some st ∨ st % 128 = 127) : Sub m { m with procs := m.procs.map g } :=
  ⟨rfl, rfl, fun _ => true, g, by rw [List.filter_eq_self.2 (by simp)], fun _ _ => rfl, hg⟩

/-- What events keep. -/
structure Keep (m m' : Machine) : Prop where
  wf : WF m → WF m'
  child : ∀ n k, ChildK m n k → ChildK m' n k
  gone : ∀ k, Gone m k → Gone m' k
  sent : m'.sent = m.sent
  own : m'.own = m.own

theorem Sub.keep {m m' : Machine} (h : Sub m m') (hs : m'.sent = m.sent) : Keep m m' :=
  ⟨h.wf, fun _ _ => h.child, fun _ => h.gone, hs, h.own⟩

theorem keep_event (m : Machine) (e : Event) : Keep m (m.event e) := by
  cases e with
  | spawn a n =>
    unfold Machine.event
    dsimp only
    split
    · rename_i p hp
      split
      · rename_i hf
        have hm := List.mem_of_find?_eq_some hp
        exact ⟨fun w => grow (m := m) (p := ⟨n, p.group, m.next, p.origin, false, none, none⟩) rfl rfl rfl rfl hf w rfl rfl (.inr ⟨rfl, p, hm, rfl, rfl⟩), fun _ _ => grow_child rfl, fun _ => grow_gone rfl rfl rfl,
          rfl, rfl⟩
      · exact (Sub.refl _ _ rfl rfl rfl).keep rfl
    · exact (Sub.refl _ _ rfl rfl rfl).keep rfl
  | lead n =>
    refine (sub_map m _ fun p => ?_).keep rfl
    split
    · rename_i h
      simp only [Bool.and_eq_true, beq_iff_eq] at h
      exact ⟨rfl, rfl, rfl, rfl, .inr h.1.symm, .inl rfl, fun _ h => .inl h⟩
    · exact ⟨rfl, rfl, rfl, rfl, .inl rfl, .inl rfl, fun _ h => .inl h⟩
  | finish n e =>
    unfold Machine.event
    dsimp only
    split
    · rename_i h
      exact (sub_terminate m _ e h).keep rfl
    · exact (Sub.refl _ _ rfl rfl rfl).keep rfl
  | stop n sig =>
    refine (sub_map m _ fun p => ?_).keep rfl
    split
    · refine ⟨rfl, rfl, rfl, rfl, .inl rfl, .inl rfl, fun st h => .inr ?_⟩
      injection h with h
      omega
    · exact ⟨rfl, rfl, rfl, rfl, .inl rfl, .inl rfl, fun _ h => .inl h⟩

theorem keep_fork (m : Machine) (n : Nat) (hf : m.free n = true) : Keep m (m.fork n) :=
  ⟨fun w => grow (m := m) (p := ⟨n, m.own, m.next, some m.next, true, none, none⟩) rfl rfl rfl rfl hf w rfl rfl (.inl ⟨rfl, rfl, rfl⟩), fun _ _ => grow_child rfl, fun _ => grow_gone rfl rfl rfl, rfl, rfl⟩

theorem fork_child (m : Machine) (n : Nat) : ChildK (m.fork n) n m.next :=
  ⟨_, List.mem_append_right _ (List.mem_singleton.2 rfl), rfl, rfl, rfl⟩

theorem free_ne {m : Machine} {n x : Nat} (hf : m.free n = true) (h : Child m x) : x ≠ n := by
  simp only [Machine.free, Bool.and_eq_true, decide_eq_true_eq, bne_iff_ne, ne_eq, List.all_eq_true] at hf
  obtain ⟨c, hc, h1, _⟩ := h
  exact h1 ▸ (hf.2 c hc).1

theorem free_pos {m : Machine} {n : Nat} (hf : m.free n = true) : n ≠ 0 := by
  simp only [Machine.free, Bool.and_eq_true, decide_eq_true_eq] at hf
  omega

theorem denotes_nat (n : Nat) (p : Proc) : denotes n p = true ↔ n = p.pid := by
  simp only [denotes, Bool.or_eq_true, beq_iff_eq]
  omega

/-- What a successful wait for a number does. -/
theorem waitpid_ended {m m' : Machine} {n st : Nat} (w : WF m) (h : m.waitpid n = .ended st m') :
    ∃ p ∈ m.procs, p.pid = n ∧ p.child = true ∧ p.ended = some st ∧ m' = { m with procs := m.procs.filter fun q => q.key != p.key } ∧
      WF m' ∧ Gone m' p.key ∧ (∀ k, Gone m k → Gone m' k) ∧ (∀ x k, x ≠ n → ChildK m x k → ChildK m' x k) ∧
      (∀ k, ChildK m n k → Gone m' k) := by
  unfold Machine.waitpid at h
  split at h
  · rename_i p hp
    have hm := List.mem_of_find?_eq_some hp
    have hq := List.find?_some hp
    simp only [Bool.and_eq_true] at hq
    obtain ⟨⟨q1, q2⟩, q3⟩ := hq
    have hpid := (denotes_nat n p).1 q2
    obtain ⟨e, he⟩ := Option.isSome_iff_exists.1 q3
    injection h with h1 h2
    rw [he] at h1
    refine ⟨p, hm, hpid.symm, q1, by rw [he]; exact congrArg some h1, h2.symm, ?_, ?_, ?_, ?_, ?_⟩
    · subst h2
      have hs : ∀ q ∈ (m.procs.filter fun q => q.key != p.key), q ∈ m.procs := fun q hq => (List.mem_filter.1 hq).1
      exact ⟨w.keys.sublist ((List.filter_sublist (l := m.procs)).map _), fun q hq => w.old q (hs q hq),
        w.pids.sublist ((List.filter_sublist (l := m.procs)).map _), fun q hq => w.pos q (hs q hq), fun q hq => w.own q (hs q hq),
        fun c hc hch q hq => w.grp c (hs c hc) hch q (hs q hq), fun c hc => w.orig c (hs c hc),
        fun q hq => w.fin q (hs q hq), fun c hc => w.stp c (hs c hc)⟩
    · subst h2
      refine ⟨w.old p hm, fun q hq => ?_⟩
      have := (List.mem_filter.1 hq).2
      simpa using this
    · subst h2
      exact fun k hk => ⟨hk.1, fun q hq => hk.2 q (List.mem_filter.1 hq).1⟩
    · subst h2
      rintro x k hx ⟨c, hc, c1, c2, c3⟩
      refine ⟨c, List.mem_filter.2 ⟨hc, ?_⟩, c1, c2, c3⟩
      simp only [bne_iff_ne, ne_eq]
      intro hk
      rw [nodup_inj w.keys hc hm hk] at c1
      exact hx (c1 ▸ hpid.symm)
    · subst h2
      rintro k ⟨c, hc, c1, c2, c3⟩
      have : c = p := nodup_inj w.pids hc hm (c1.trans hpid)
      subst this
      refine ⟨c2 ▸ w.old c hc, fun q hq => ?_⟩
      have := (List.mem_filter.1 hq).2
      rw [← c2]
      simpa using this
  · split at h <;> cases h

theorem waitpid_noChild {m : Machine} {n : Nat} (h : m.waitpid n = .noChild) : ¬ Child m n := by
  unfold Machine.waitpid at h
  split at h
  · cases h
  · split at h
    · cases h
    · rename_i ha
      rintro ⟨c, hc, h1, h2⟩
      exact ha (List.any_eq_true.2 ⟨c, hc, by rw [h2, (denotes_nat n c).2 h1.symm]; rfl⟩)

theorem kill_mem {m : Machine} {n : Nat} {x : Signal × Proc} (h : x ∈ (m.kill n).1.sent) :
    x ∈ m.sent ∨ (x.1 = .int ∧ x.2 ∈ m.procs ∧ x.2.pid = n) := by
  simp only [Machine.kill] at h
  rcases List.mem_append.1 h with h | h
  · exact .inl h
  · obtain ⟨p, hp, rfl⟩ := List.mem_map.1 h
    obtain ⟨h1, h2⟩ := List.mem_filter.1 hp
    exact .inr ⟨rfl, h1, ((denotes_nat n p).1 h2).symm⟩

theorem kill_found {m : Machine} {n : Nat} (h : Child m n) : (m.kill n).2 = true := by
  obtain ⟨c, hc, h1, _⟩ := h
  have : c ∈ m.procs.filter (denotes n) := List.mem_filter.2 ⟨hc, (denotes_nat n c).2 h1.symm⟩
  simp only [Machine.kill, Bool.not_eq_eq_eq_not, Bool.not_true, List.isEmpty_eq_false_iff]
  exact List.ne_nil_of_mem this

theorem killpg_mem {m : Machine} {g : Nat} {x : Signal × Proc} (h : x ∈ (m.killpg g).sent) :
    x ∈ m.sent ∨ (x.1 = .kill ∧ x.2 ∈ m.procs ∧ x.2.group = g) := by
  simp only [Machine.killpg] at h
  rcases List.mem_append.1 h with h | h
  · exact .inl h
  · obtain ⟨p, hp, rfl⟩ := List.mem_map.1 h
    obtain ⟨h1, h2⟩ := List.mem_filter.1 hp
    exact .inr ⟨rfl, h1, by simpa using h2⟩

end Verif.Process
