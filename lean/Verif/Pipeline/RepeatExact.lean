import Verif.Pipeline.RepeatProps
/-!
# Property C152: exactly when repeated frames do not matter with linear steps
-/

namespace Verif.Pipeline

open Verif.Gsd

variable {α : Type}

/-- The frames of a file before the first one that is beyond `m`. -/
def upTo (m : Int) (fs : List (GFrame α)) : List (GFrame α) := fs.takeWhile (fun f => decide (f.timestep ≤ m))

theorem linearReader_upTo (m interval kmax : Int) (hi : interval ≠ 0) : ∀ (fs : List (GFrame α)) (il : List Nat),
    linearReader (some m) interval kmax none fs il = linearReader (some m) interval kmax none (upTo m fs) il
  | [], _ => rfl
  | f :: fs, il => by
    unfold upTo
    rw [List.takeWhile_cons]
    by_cases h : f.timestep ≤ m
    · rw [if_pos (by simpa using h), linearReader, linearReader, if_neg hi, if_neg hi]
      have hn : (some m).any (fun m => decide (f.timestep > m)) = false := by simpa using h
      simp only [hn, Bool.false_eq_true, if_false]
      rw [linearReader_upTo m interval kmax hi fs _]
      rfl
    · rw [if_neg (by simpa using h), linearReader, linearReader, if_neg hi]
      have hn : (some m).any (fun m => decide (f.timestep > m)) = true := by simpa using h
      simp [hn]

theorem repeats_upTo (m : Int) {l l' : List (GFrame α)} (h : Repeats l l') :
    (upTo m l).length ≤ (upTo m l').length ∧ ((upTo m l').length = (upTo m l).length → upTo m l' = upTo m l) := by
  induction h with
  | nil => exact ⟨le_refl _, fun _ => rfl⟩
  | @cons f again l l' same _ ih =>
    unfold upTo at ih ⊢
    rw [List.takeWhile_cons, List.takeWhile_cons]
    by_cases hf : f.timestep ≤ m
    · have hag : (again ++ l').takeWhile (fun f => decide (f.timestep ≤ m)) =
          again ++ l'.takeWhile (fun f => decide (f.timestep ≤ m)) :=
        List.takeWhile_append_of_pos (by
          intro g hg
          rw [same g hg]
          simpa using hf)
      rw [if_pos (by simpa using hf), if_pos (by simpa using hf), hag]
      simp only [List.length_cons, List.length_append]
      refine ⟨by omega, fun he => ?_⟩
      have h0 : again.length = 0 := by omega
      rw [List.length_eq_zero_iff] at h0
      subst h0
      rw [List.nil_append, ih.2 (by simp only [List.length_nil] at he; omega)]
    · rw [if_neg (by simpa using hf), if_neg (by simpa using hf)]
      exact ⟨le_refl _, fun _ => rfl⟩

/-- **C152, linear steps, exactly.**  A file with repeated frames is read as the one without iff none of the frames up
to `steps_max` is repeated: they are equally many. -/
theorem C152_exactly (raws raws' : List (Raw α)) (m interval kmax : Int) (hc : OnlyCorrupt raws)
    (hc' : OnlyCorrupt raws') (hrep : Repeats (readable raws) (readable raws')) (hi : 1 ≤ interval) :
    readGsd raws' (some m) none interval kmax = readGsd raws (some m) none interval kmax ↔
      (upTo m (readable raws')).length = (upTo m (readable raws)).length := by
  have e : ∀ r : List (Raw α), OnlyCorrupt r → readGsd r (some m) none interval kmax =
      linearReader (some m) interval kmax none (upTo m (readable r)) [] := by
    intro r hr
    rw [← linearReader_upTo m interval kmax (by omega)]
    simp only [readGsd, gsdLinear, iterTrajectory_eq r hr]
  have hup : ∀ fs : List (GFrame α), upTo m (upTo m fs) = upTo m fs := by
    intro fs
    unfold upTo
    induction fs with
    | nil => rfl
    | cons f fs ih =>
      rw [List.takeWhile_cons]
      split
      · next h => rw [List.takeWhile_cons, if_pos h, ih]
      · rfl
  have hn : (fun f : GFrame α => !(some m).any (fun m => decide (f.timestep > m))) =
      fun f => decide (f.timestep ≤ m) := by
    funext f
    rw [Bool.eq_iff_iff]
    simp
  have hf : ∀ fs : List (GFrame α),
      (linearReader (some m) interval kmax none (upTo m fs) []).1.map Prod.snd = upTo m fs := by
    intro fs
    rw [linear_frames (some m) interval kmax (by omega), hn]
    exact hup fs
  rw [e raws hc, e raws' hc']
  constructor
  · intro h
    rw [← hf (readable raws'), h, hf]
  · intro h
    rw [(repeats_upTo m hrep).2 h]

/-- Step 9 is there twice, behind the last step that is read. -/
example : Repeats (readable (sample [0, 1, 9])) (readable (sample [0, 1, 9, 9])) ∧
    (upTo 5 (readable (sample [0, 1, 9, 9]))).length = (upTo 5 (readable (sample [0, 1, 9]))).length :=
  ⟨.cons ⟨0, ()⟩ [] (by simp) (.cons ⟨1, ()⟩ [] (by simp) (.cons ⟨9, ()⟩ [⟨9, ()⟩] (by simp) .nil)), by decide⟩

end Verif.Pipeline
