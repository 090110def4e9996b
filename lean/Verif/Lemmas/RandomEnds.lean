import Verif.Lemmas.Random

/-! # Runs of the event loop come to an end when weights other than zero keep coming -/

namespace Sidis.Lemmas.Random

open Gen StatsLib Spec Lemmas.Generate Props

variable {S R K : Type} [StatsLib S]

theorem drawLoop_mono (src : Source R K) (i : ℕ) (sc : Fl) (fuel : ℕ) : ∀ (fuel' : ℕ)
    (a : Accum S) (r : R) (out), fuel ≤ fuel' → drawLoop src i sc fuel a r = some out →
    drawLoop src i sc fuel' a r = some out := by
  induction fuel with
  | zero => intro fuel' a r out _ h; simp [drawLoop] at h
  | succ n ih =>
    intro fuel' a r out hle h
    obtain ⟨m, rfl⟩ : ∃ m, fuel' = m + 1 := ⟨fuel' - 1, by omega⟩
    rw [drawLoop] at h ⊢
    simp only at h ⊢
    split_ifs at h ⊢ with h0
    · split at h
      · simp at h
      · rename_i e' integ rnd ds hd
        rw [ih m _ _ _ (by omega) hd]
        exact h
    · exact h

theorem eventLoop_mono (src : Source R K) (fuel fuel' : ℕ) (hle : fuel ≤ fuel') (n : ℕ) :
    ∀ (k : ℕ) (s : State S R K), eventLoop src fuel n k s ≠ .running →
      eventLoop src fuel' n k s = eventLoop src fuel n k s := by
  have step : ∀ (k : ℕ) (s : State S R K), eventStep src fuel k s ≠ .running →
      eventStep src fuel' k s = eventStep src fuel k s := by
    intro k s h
    unfold eventStep at h ⊢
    cases hc : chosenGen k s.gens with
    | none => rfl
    | some idx =>
      simp only [hc] at h ⊢
      cases hg : s.gens[idx]? with
      | none => rfl
      | some g =>
        simp only [hg] at h ⊢
        cases hd : drawLoop src idx g.rejScale fuel g.integ s.rnd with
        | none => simp [hd] at h
        | some out => rw [drawLoop_mono src idx _ fuel fuel' _ _ out hle hd]
  induction n with
  | zero => intro k s _; rfl
  | succ n ih =>
    intro k s h
    rw [eventLoop] at h ⊢
    rw [eventLoop]
    have hs : eventStep src fuel k s ≠ .running := by
      intro hh; rw [hh] at h; exact h rfl
    rw [step k s hs]
    cases he : eventStep src fuel k s with
    | done s' => rw [he] at h; exact ih _ _ h
    | _ => rfl

/-- The do-while loop ends when the sequence of weights has another term that is not zero. -/
theorem drawLoop_ends (i : ℕ) (sc : ℝ) (m : ℕ) : ∀ (a : Accum S) (e : Engine K),
    W (e.lots i) sc (e.made i + m) ≠ 0 →
    ∃ out, drawLoop (engine K) i (.fin sc) (m + 1) a e = some out := by
  induction m with
  | zero =>
    intro a e h
    rw [drawLoop, drawOnce_eq]
    have : ¬ (Fl.fin (W (e.lots i) sc (e.made i))).eq (.fin 0) := h
    simp only [this, if_false]
    exact ⟨_, rfl⟩
  | succ m ih =>
    intro a e h
    rw [drawLoop, drawOnce_eq]
    simp only
    split_ifs with h0
    · obtain ⟨out, ho⟩ := ih (a.push (.fin (W (e.lots i) sc (e.made i))))
        ⟨e.lots, Function.update e.made i (e.made i + 1), (e.lots i (e.made i)).uniform⟩ (by
          simp only [Function.update_self]
          rwa [show e.made i + 1 + m = e.made i + (m + 1) by omega])
      rw [ho]
      exact ⟨_, rfl⟩
    · exact ⟨_, rfl⟩

theorem drawn_lots (sc : ℕ → ℝ) (ds : List (Draw K)) : ∀ (e e' : Engine K),
    Drawn (engine K) (fun i => .fin (sc i)) e ds e' → e'.lots = e.lots := by
  induction ds with
  | nil => intro e e' h; rw [Drawn] at h; rw [h]
  | cons d ds ih =>
    intro e e' h
    have := ih _ _ h.1
    rw [drawOnce_eq] at this
    exact this

/-- Either there is a number of rounds with which the loop ends, or a generator index is undefined. -/
theorem loop_ends (gens : List (EventType × Fl × Fl)) (sc : ℕ → ℝ)
    (hsc : scaleOf gens = fun i => Fl.fin (sc i)) (lots : ℕ → ℕ → Lot K)
    (hinf : ∀ i < gens.length, ∀ k, ∃ m, W (lots i) (sc i) (k + m) ≠ 0) (n : ℕ) :
    ∀ (k : ℕ) (s : State S (Engine K) K), Faithful gens s → s.rnd.lots = lots →
      ∃ fuel, eventLoop (engine K) fuel n k s = .ub ∨
        ∃ s', eventLoop (engine K) fuel n k s = .done s' := by
  induction n with
  | zero => intro k s _ _; exact ⟨0, Or.inr ⟨s, rfl⟩⟩
  | succ n ih =>
    intro k s hf hl
    have hstep : ∃ fuel, eventStep (engine K) fuel k s = .ub ∨
        ∃ s', eventStep (engine K) fuel k s = .done s' := by
      unfold eventStep
      cases hc : chosenGen k s.gens with
      | none => exact ⟨0, Or.inl rfl⟩
      | some idx =>
        simp only
        cases hg : s.gens[idx]? with
        | none => exact ⟨0, Or.inl rfl⟩
        | some g =>
          have hgen : gens[idx]? = some (g.evType, g.integ.primeInv, g.rejScale) := by
            rw [← hf.types, List.getElem?_map, hg]; rfl
          have hlt : idx < gens.length := by
            by_contra hh; rw [List.getElem?_eq_none (by omega)] at hgen; simp at hgen
          have hrs : g.rejScale = .fin (sc idx) := by
            have := congrFun hsc idx
            simpa [scaleOf, hgen] using this
          obtain ⟨m, hm⟩ := hinf idx hlt (s.rnd.made idx)
          rw [← hl] at hm
          obtain ⟨out, ho⟩ := drawLoop_ends (S := S) idx (sc idx) m g.integ s.rnd hm
          refine ⟨m + 1, Or.inr ?_⟩
          simp only [hrs, ho]
          exact ⟨_, rfl⟩
    obtain ⟨f1, h1 | ⟨s1, h1⟩⟩ := hstep
    · exact ⟨f1, Or.inl (by rw [eventLoop, h1])⟩
    · obtain ⟨hf1, -, idx, g, ds, -, -, -, -, -, hd⟩ := step_faithful (engine K) f1 k s s1 hf h1
      have hd' : Drawn (engine K) (fun i => .fin (sc i)) s.rnd ds s1.rnd := by
        have : (fun i => ((gens[i]?).map fun g => g.2.2).getD (.fin 0)) =
            fun i => Fl.fin (sc i) := hsc
        rwa [this] at hd
      obtain ⟨f2, h2⟩ := ih (k + 1) s1 hf1 (by rw [drawn_lots sc _ _ _ hd', hl])
      have e1 : eventLoop (engine K) f1 1 k s = .done s1 := by rw [eventLoop, h1]; rfl
      have e1' : eventStep (engine K) (max f1 f2) k s = .done s1 := by
        have := eventLoop_mono (engine K) f1 (max f1 f2) (le_max_left _ _) 1 k s (by rw [e1]; simp)
        rw [e1, eventLoop] at this
        cases he : eventStep (engine K) (max f1 f2) k s with
        | done s' => rw [he] at this; exact this
        | _ => rw [he] at this; simp at this
      have e2 : eventLoop (engine K) (max f1 f2) n (k + 1) s1 =
          eventLoop (engine K) f2 n (k + 1) s1 :=
        eventLoop_mono (engine K) f2 _ (le_max_right _ _) n _ _ (by
          rcases h2 with h2 | ⟨s', h2⟩ <;> rw [h2] <;> simp)
      refine ⟨max f1 f2, ?_⟩
      rw [eventLoop, e1']
      simp only
      rw [e2]
      exact h2

end Sidis.Lemmas.Random
