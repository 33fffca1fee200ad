import Verif.Viewer.StateLemmas
/-!
# Lemmas for C179
-/

namespace Verif.Viewer

variable (env : Env)

theorem setSlider_slider {s : State} {v e : Int} (h : s.slider = some ⟨v, e⟩) (w : Int) :
    (setSlider env w s).1.slider = some ⟨w, e⟩ := by
  unfold setSlider
  rw [h]
  simp only
  split
  · next hw => rw [h, hw]
  · exact congrArg Prod.snd (updateFrame_keeps env { s with slider := some ⟨w, e⟩ })

theorem incrIndex_slider {s : State} {v e : Int} (h : s.slider = some ⟨v, e⟩) :
    (incrIndex env s).1.slider = some ⟨if v < e then min (v + s.increment) e else v, e⟩ := by
  unfold incrIndex
  rw [h]
  simp only
  split
  · exact setSlider_slider env h _
  · exact h

theorem decrIndex_slider {s : State} {v e : Int} (h : s.slider = some ⟨v, e⟩) :
    (decrIndex env s).1.slider = some ⟨if 0 < v then max (v - s.increment) 0 else v, e⟩ := by
  unfold decrIndex
  rw [h]
  simp only
  split
  · exact setSlider_slider env h _
  · exact h

theorem incrIndex_increment (s : State) : (incrIndex env s).1.increment = s.increment := by
  unfold incrIndex
  split
  · rfl
  · split
    · exact congrArg Prod.fst (setSlider_other env _ s)
    · rfl

theorem after_append (s : State) (a b : List Event) : after env s (a ++ b) = after env (after env s a) b := by
  induction a generalizing s with
  | nil => rfl
  | cons e a ih => exact ih _

theorem after_ticks_succ (s : State) (m : Nat) :
    after env s (List.replicate (m + 1) .tick) = (incrIndex env (after env s (List.replicate m .tick))).1 := by
  rw [List.replicate_succ', after_append]
  rfl

/-- The state after ticks: the slider, and what stays. -/
theorem after_ticks {s : State} {v e : Int} (h : s.slider = some ⟨v, e⟩) (hi : 1 ≤ s.increment) (hv : v ≤ e) (m : Nat) :
    (after env s (List.replicate m .tick)).slider = some ⟨min (v + m * s.increment) e, e⟩ ∧
    (after env s (List.replicate m .tick)).increment = s.increment ∧
    core (after env s (List.replicate m .tick)) = core s := by
  induction m with
  | zero => exact ⟨by simpa [after, min_eq_left hv] using h, rfl, rfl⟩
  | succ m ih =>
    obtain ⟨h1, h2, h3⟩ := ih
    rw [after_ticks_succ]
    refine ⟨?_, (incrIndex_increment env _).trans h2, (incrIndex_keeps env _).trans h3⟩
    rw [incrIndex_slider env h1, h2]
    have e1 : ((m + 1 : Nat) : Int) * s.increment = m * s.increment + s.increment := by push_cast; ring
    rw [e1]
    congr 2
    generalize (m : Int) * s.increment = x
    split <;> omega

/-- Ticks as long as the slider stays on frames: no exception, and the frame is the one of the slider. -/
theorem tick_shows {s : State} {f : Str} {n : Nat} {v e : Int} (hr : AllRead env)
    (ht : s.trajectory = some (f, n)) (h : s.slider = some ⟨v, e⟩) (hv : 0 ≤ v) (hi : 1 ≤ s.increment)
    (hn : v < n) (hf : s.frame = some (f, v.toNat)) (hs : s.shown = some ((f, v.toNat), s.oActive)) :
    (min (v + s.increment) e < n → v ≤ e → (incrIndex env s).2 = none ∧
      (incrIndex env s).1.frame = some (f, (min (v + s.increment) e).toNat) ∧
      (incrIndex env s).1.shown = some ((f, (min (v + s.increment) e).toNat), s.oActive) ∧
      (incrIndex env s).1.oActive = s.oActive) ∧
    (v < e → ¬ min (v + s.increment) e < n → (incrIndex env s).2 = some .indexError ∧
      (incrIndex env s).1.frame = s.frame ∧ (incrIndex env s).1.shown = s.shown) := by
  unfold incrIndex
  rw [h]
  simp only
  by_cases hlt : v < e
  · rw [if_pos hlt]
    unfold setSlider
    rw [h]
    simp only
    rw [if_neg (by omega)]
    refine ⟨fun hm _ => ?_, fun _ hm => ?_⟩
    · rw [updateFrame_ok env hr (s := { s with slider := some ⟨min (v + s.increment) e, e⟩ }) ht
        (by simp only [State.index]; omega) hm]
      exact ⟨rfl, rfl, rfl, rfl⟩
    · rw [updateFrame_out env (s := { s with slider := some ⟨min (v + s.increment) e, e⟩ }) ht
        (by simp only [State.index]; omega) hm]
      exact ⟨rfl, rfl, rfl⟩
  · rw [if_neg hlt]
    refine ⟨fun hm hle => ?_, fun h => absurd h hlt⟩
    have : min (v + s.increment) e = v := by omega
    rw [this]
    exact ⟨rfl, hf, hs, rfl⟩

theorem ticks_show {s : State} {f : Str} {n : Nat} {v e : Int} (hr : AllRead env)
    (ht : s.trajectory = some (f, n)) (h : s.slider = some ⟨v, e⟩) (hv : 0 ≤ v) (hve : v ≤ e)
    (hi : 1 ≤ s.increment) (hf : s.frame = some (f, v.toNat))
    (hs : s.shown = some ((f, v.toNat), s.oActive)) (m : Nat) (hm : min (v + m * s.increment) e < n) :
    (after env s (List.replicate m .tick)).frame = some (f, (min (v + m * s.increment) e).toNat) ∧
    (after env s (List.replicate m .tick)).shown = some ((f, (min (v + m * s.increment) e).toNat), s.oActive) ∧
    (after env s (List.replicate m .tick)).oActive = s.oActive ∧
    ∀ k < m, (incrIndex env (after env s (List.replicate k .tick))).2 = none := by
  induction m with
  | zero =>
    have e0 : min (v + ((0 : Nat) : Int) * s.increment) e = v := by simp [hve]
    rw [e0]
    exact ⟨hf, hs, rfl, fun k hk => absurd hk (by omega)⟩
  | succ m ih =>
    have e1 : ((m + 1 : Nat) : Int) * s.increment = m * s.increment + s.increment := by push_cast; ring
    have hpos : 0 ≤ (m : Int) * s.increment := mul_nonneg (by omega) (by omega)
    rw [e1] at hm ⊢
    obtain ⟨h1, h2, h3⟩ := after_ticks env h hi hve m
    have hlt : min (v + m * s.increment) e < n := by omega
    obtain ⟨i1, i2, i3, i4⟩ := ih hlt
    have key := (tick_shows env hr (s := after env s (List.replicate m .tick))
      ((core_trajectory h3).trans ht) h1 (by omega) (by omega) hlt i1 (by rw [i3]; exact i2)).1
    have e2 : min (min (v + m * s.increment) e + s.increment) e = min (v + (m * s.increment + s.increment)) e := by
      generalize (m : Int) * s.increment = x at *
      omega
    rw [h2, e2] at key
    obtain ⟨k1, k2, k3, k4⟩ := key hm (by omega)
    rw [after_ticks_succ]
    refine ⟨k2, by rw [k3, i3], by rw [k4, i3], fun k hk => ?_⟩
    rcases Nat.lt_succ_iff_lt_or_eq.1 hk with hk | rfl
    · exact i4 k hk
    · exact k1

theorem possible_ticks {s : State} (h : s.timers ≠ []) (m : Nat) : Possible env s (List.replicate m .tick) := by
  induction m generalizing s with
  | zero => trivial
  | succ m ih =>
    refine ⟨h, ih ?_⟩
    have := core_tim (incrIndex_keeps env s)
    simp only [tim, Prod.mk.injEq] at this
    simp only [Event.handle]
    rwa [this.2.2.1]

end Verif.Viewer
