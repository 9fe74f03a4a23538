import Verif.Expr.Lemmas
/-
The parser only accepts texts of expressions, and terminates on every input.
-/
namespace Verif.Expr
variable {D : Type} [Dbl D] {env : String → R D}

theorem bind_eq_some' {α β : Type} {x : Option α} {f : α → Option β} {b : β}
    (h : (x >>= f) = some b) : ∃ a, x = some a ∧ f a = some b := by
  cases x with
  | none => cases h
  | some a => exact ⟨a, rfl, h⟩

omit [Dbl D] in
theorem act_ok {r : R D} {rest : List (Tok D)} {v : Value D} {rest' : List (Tok D)}
    (h : act r rest = .ok v rest') : r = .ok v ∧ rest = rest' := by
  unfold act at h; split at h <;> simp_all

set_option linter.unusedVariables false in
theorem sound (env : String → R D) :
    (∀ l ts o, parse env l ts = some o → M1 env l ts o) ∧
    (∀ l v ts o, loop env l v ts = some o → M2 env l v ts o) := by
  apply parse.mutual_partial_correctness env (M1 env) (M2 env)
  · intro P L hP hL l ts o h v r ho hl
    subst ho
    split at h
    · rename_i l3
      obtain ⟨a, ha, h⟩ := bind_eq_some' h
      split at h
      · rename_i v1 r1
        obtain ⟨pre, e, e1, e2, e3, e4⟩ := hP _ _ _ ha v1 r1 rfl (by omega)
        obtain ⟨pre', e', f1, f2, f3⟩ := hL _ _ _ _ h v r rfl l3 pre e e3.stronger e4
        exact ⟨pre ++ pre', e', by rw [e1, f1, List.append_assoc], by simp [e2], f2, f3⟩
      · simp at h; simp_all
    · split at h
      · rename_i l4
        subst l4
        have up : ∀ {ts : List (Tok D)}, P 5 ts = some (.ok v r) → ∃ pre e, ts = pre ++ r ∧ pre ≠ [] ∧
            Derives 4 pre e ∧ e.eval env = .ok v := by
          intro ts h
          obtain ⟨pre, e, e1, e2, e3, e4⟩ := hP _ _ _ h v r rfl (by omega)
          exact ⟨pre, e, e1, e2, e3.stronger, e4⟩
        split at h
        · obtain ⟨a, ha, h⟩ := bind_eq_some' h
          split at h
          · rename_i v1 r1
            obtain ⟨pre, e, e1, e2, e3, e4⟩ := hP _ _ _ ha v1 r1 rfl (by omega)
            obtain ⟨g1, rfl⟩ := act_ok (Option.some.inj h)
            exact ⟨_, _, by rw [e1]; rfl, by simp, .neg e3, by simp [Expr.eval, e4, bind, Except.bind, g1]⟩
          · cases h
          · exact up h
        · obtain ⟨a, ha, h⟩ := bind_eq_some' h
          split at h
          · rename_i v1 r1
            obtain ⟨pre, e, e1, e2, e3, e4⟩ := hP _ _ _ ha v1 r1 rfl (by omega)
            obtain ⟨g1, rfl⟩ := act_ok (Option.some.inj h)
            exact ⟨_, _, by rw [e1]; rfl, by simp, .not e3, by simp [Expr.eval, e4, bind, Except.bind, g1]⟩
          · cases h
          · exact up h
        · exact up h
      · split at h
        · rename_i l5
          subst l5
          have up : ∀ {ts : List (Tok D)}, P 6 ts = some (.ok v r) → ∃ pre e, ts = pre ++ r ∧ pre ≠ [] ∧
              Derives 5 pre e ∧ e.eval env = .ok v := by
            intro ts h
            obtain ⟨pre, e, e1, e2, e3, e4⟩ := hP _ _ _ h v r rfl (by omega)
            exact ⟨pre, e, e1, e2, e3.stronger, e4⟩
          split at h
          · obtain ⟨a, ha, h⟩ := bind_eq_some' h
            split at h
            · rename_i v1 r1
              obtain ⟨a2, ha2, h⟩ := bind_eq_some' h
              split at h
              · rename_i v2 r2
                obtain ⟨pre, e, e1, e2, e3, e4⟩ := hP _ _ _ ha _ _ rfl (by omega)
                obtain ⟨pre', e', f1, f2, f3, f4⟩ := hP _ _ _ ha2 _ _ rfl (by omega)
                obtain ⟨g1, rfl⟩ := act_ok (Option.some.inj h)
                refine ⟨_, _, ?_, ?_, .pow e3 f3, ?_⟩
                · rw [e1, f1]; simp
                · simp
                · simp [Expr.eval, e4, f4, bind, Except.bind, g1]
              · cases h
              · exact up h
            · cases h
            · exact up h
          · rename_i f rr
            obtain ⟨a, ha, h⟩ := bind_eq_some' h
            split at h
            · rename_i v1 r1
              obtain ⟨pre, e, e1, e2, e3, e4⟩ := hP _ _ _ ha _ _ rfl (by omega)
              obtain ⟨g1, rfl⟩ := act_ok (Option.some.inj h)
              refine ⟨_, _, ?_, ?_, .fn f e3, ?_⟩
              · rw [e1]; simp
              · simp
              · simp [Expr.eval, e4, bind, Except.bind, g1]
            · cases h
            · exact up h
          · exact up h
        · have l6 : l = 6 := by omega
          subst l6
          split at h
          · obtain ⟨a, ha, h⟩ := bind_eq_some' h
            split at h
            · rename_i v1 r1
              obtain ⟨pre, e, e1, e2, e3, e4⟩ := hP _ _ _ ha _ _ rfl (by omega)
              cases h
              exact ⟨_, _, by rw [e1]; simp, by simp, .paren e3, e4⟩
            · cases h
            · cases h
          · cases h
            exact ⟨[_], _, rfl, by simp, .lit v, rfl⟩
          · obtain ⟨g1, rfl⟩ := act_ok (Option.some.inj h)
            exact ⟨[_], _, rfl, by simp, .var _, g1⟩
          · cases h
  · intro P L hP hL l v ts o h v' r ho hl pre e hd he
    subst ho
    split at h
    · rename_i o r0
      split at h
      · rename_i hlev
        obtain ⟨a, ha, h⟩ := bind_eq_some' h
        split at h
        · rename_i v1 r1
          split at h
          · rename_i x hx
            obtain ⟨pre1, e1, f1, f2, f3, f4⟩ := hP _ _ _ ha _ _ rfl (by omega)
            have hp := level_prec o e e1
            obtain ⟨pre', e', g1, g2, g3⟩ := hL _ _ _ _ h v' r rfl hl (pre ++ .op o :: pre1) (.bin o e e1)
              (by
                have := Derives.bin (D := D) o (a := e) (b := e1) (ts := pre) (us := pre1)
                  (by rw [← hp, hlev]; exact hd) (by rw [← hp, hlev]; exact f3)
                rwa [← hp, hlev] at this)
              (by simp [Expr.eval, he, f4, bind, Except.bind, hx])
            exact ⟨.op o :: pre1 ++ pre', e', by rw [f1, g1]; simp, by simpa using g2, g3⟩
          · cases h
        · cases h
        · cases h
          exact ⟨[], e, by simp, by simpa using hd, he⟩
      · cases h
        exact ⟨[], e, by simp, by simpa using hd, he⟩
    · cases h
      exact ⟨[], e, by simp, by simpa using hd, he⟩

/-- What is left over after a match. -/
theorem shorter {l : Nat} {ts : List (Tok D)} {v : Value D} {r : List (Tok D)} (hl : l ≤ 6)
    (h : parse env l ts = some (.ok v r)) : r.length < ts.length := by
  obtain ⟨pre, e, e1, e2, _, _⟩ := (sound env).1 _ _ _ h v r rfl hl
  cases pre with
  | nil => exact absurd rfl e2
  | cons a pre => rw [e1]; simp; omega

theorem bind_ne_none {α β : Type} {x : Option α} {f : α → Option β} (hx : x ≠ none)
    (hf : ∀ a, x = some a → f a ≠ none) : (x >>= f) ≠ none := by
  cases x with
  | none => exact absurd rfl hx
  | some a => exact hf a rfl

theorem loop_terminates (env : String → R D) (n l : Nat) (hl : l ≤ 3)
    (hp : ∀ ts : List (Tok D), ts.length < n → parse env (l + 1) ts ≠ none) (m : Nat) :
    ∀ (v : Value D) (ts : List (Tok D)), ts.length ≤ n → ts.length ≤ m → loop env l v ts ≠ none := by
  induction m with
  | zero =>
    intro v ts h hm
    obtain rfl : ts = [] := List.eq_nil_of_length_eq_zero (by omega)
    rw [loop.eq_def]; simp
  | succ m ih =>
    intro v ts h hm
    rw [loop.eq_def]
    split
    · rename_i o r
      simp only [List.length_cons] at h hm
      split
      · apply bind_ne_none (hp r (by omega))
        intro a ha
        split
        · have := shorter (by omega) ha
          split
          · exact ih _ _ (by omega) (by omega)
          · simp
        · simp
        · simp
      · simp
    · simp

theorem parse_terminates (env : String → R D) (n : Nat) :
    ∀ (l : Nat) (ts : List (Tok D)), l ≤ 6 → ts.length ≤ n → parse env l ts ≠ none := by
  induction n using Nat.strongRecOn with
  | ind n ih =>
  have low : ∀ (l : Nat) (ts : List (Tok D)), l ≤ 6 → ts.length < n → parse env l ts ≠ none :=
    fun l ts hl h => ih ts.length h l ts hl (Nat.le_refl _)
  have p6 : ∀ ts : List (Tok D), ts.length ≤ n → parse env 6 ts ≠ none := by
    intro ts h
    rw [parse.eq_def, if_neg (by omega), if_neg (by omega), if_neg (by omega)]
    split
    · simp only [List.length_cons] at h
      apply bind_ne_none (low _ _ (by omega) (by omega))
      intro a _
      split <;> simp
    all_goals simp
  have p5 : ∀ ts : List (Tok D), ts.length ≤ n → parse env 5 ts ≠ none := by
    intro ts h
    rw [parse.eq_def, if_neg (by omega), if_neg (by omega), if_pos rfl]
    split
    · apply bind_ne_none (low _ _ (by omega) (by simp only [List.length_cons] at h; omega))
      intro a ha
      split
      · have := shorter (by omega) ha
        apply bind_ne_none (low _ _ (by omega) (by simp only [List.length_cons] at h this; omega))
        intro a _
        split
        · simp
        · simp
        · exact p6 _ h
      · simp
      · exact p6 _ h
    · apply bind_ne_none (low _ _ (by omega) (by simp only [List.length_cons] at h; omega))
      intro a ha
      split
      · simp
      · simp
      · exact p6 _ h
    · exact p6 _ h
  have p4 : ∀ ts : List (Tok D), ts.length ≤ n → parse env 4 ts ≠ none := by
    intro ts h
    rw [parse.eq_def, if_neg (by omega), if_pos rfl]
    split
    · apply bind_ne_none (low _ _ (by omega) (by simp only [List.length_cons] at h; omega))
      intro a ha
      split
      · simp
      · simp
      · exact p5 _ h
    · apply bind_ne_none (low _ _ (by omega) (by simp only [List.length_cons] at h; omega))
      intro a ha
      split
      · simp
      · simp
      · exact p5 _ h
    · exact p5 _ h
  have down : ∀ l : Nat, l ≤ 3 → (∀ ts : List (Tok D), ts.length ≤ n → parse env (l + 1) ts ≠ none) →
      ∀ ts : List (Tok D), ts.length ≤ n → parse env l ts ≠ none := by
    intro l hl h ts hts
    rw [parse.eq_def, if_pos hl]
    apply bind_ne_none (h ts hts)
    intro a ha
    split
    · have := shorter (by omega) ha
      exact loop_terminates env n l hl (fun ts h' => h ts (by omega)) n _ _ (by omega) (by omega)
    · simp
  have p3 := down 3 (by omega) p4
  have p2 := down 2 (by omega) p3
  have p1 := down 1 (by omega) p2
  have p0 := down 0 (by omega) p1
  intro l ts hl h
  match l, hl with
  | 0, _ => exact p0 ts h
  | 1, _ => exact p1 ts h
  | 2, _ => exact p2 ts h
  | 3, _ => exact p3 ts h
  | 4, _ => exact p4 ts h
  | 5, _ => exact p5 ts h
  | 6, _ => exact p6 ts h

end Verif.Expr
