import Verif.Gsd.TimelineSpec
import Verif.Gsd.RepeatLemmas
import Verif.Gsd.LocalLemmas
/-!
# Lemmas for C178
-/

namespace Verif.Gsd

open scoped List

variable {α : Type}

/-- The times of what is yielded. -/
def outTimes (r : List (List Nat × GFrame α) × Option PyErr) : List Int := r.1.map (fun p => p.2.timestep)

theorem taken_none : ∀ (l : List (Int × Mark)) (p : Place), (∀ x ∈ l, x.2 ≠ .both) → taken p l = []
  | [], _, _ => rfl
  | (t, k) :: l, p, h => by
    have hk : k ≠ .both := h (t, k) (by simp)
    have hl : ∀ x ∈ l, x.2 ≠ .both := fun x hx => h x (by simp [hx])
    cases k with
    | both => exact absurd rfl hk
    | frame => exact taken_none l _ hl
    | step => exact taken_none l _ hl

theorem timeline_left (ss : List Int) : ∀ x ∈ timeline [] ss, x.2 ≠ .both := by
  unfold timeline
  simp

theorem timeline_right (fs : List Int) : ∀ x ∈ timeline fs [], x.2 ≠ .both := by
  cases fs with
  | nil => exact timeline_left []
  | cons f fs => unfold timeline; simp

theorem outTimes_none {m : Int} {fe : Option PyErr} {fs : List (GFrame α)} {ss : List (Int × List Nat)}
    (h : ∀ f ∈ fs, ∀ s ∈ ss, f.timestep ≠ s.1) : outTimes (expReader m fe fs ss) = [] := by
  obtain ⟨h1, h2⟩ := (exp_sublist m fe fs).1 ss
  unfold outTimes
  match hr : (expReader m fe fs ss).1 with
  | [] => rfl
  | p :: l =>
    rw [hr] at h1 h2
    exact absurd rfl (h p.2 (h1.subset (by simp)) (p.2.timestep, p.1) (h2.subset (by simp)))

theorem catchTimes_none {m : Int} {fe : Option PyErr} {fs : List (GFrame α)} {cur : Int × List Nat}
    {ss : List (Int × List Nat)} (h : ∀ f ∈ fs, ∀ s ∈ cur :: ss, f.timestep ≠ s.1) :
    outTimes (catchFrames m fe cur fs ss) = [] := by
  obtain ⟨h1, h2⟩ := (exp_sublist m fe fs).2 cur ss
  unfold outTimes
  match hr : (catchFrames m fe cur fs ss).1 with
  | [] => rfl
  | p :: l =>
    rw [hr] at h1 h2
    exact absurd rfl (h p.2 (h1.subset (by simp)) (p.2.timestep, p.1) (h2.subset (by simp)))

theorem outTimes_met {m : Int} {cur : Int × List Nat} {f : GFrame α}
    {next : List (List Nat × GFrame α) × Option PyErr} (hm : cur.1 ≤ m) (h : cur.1 = f.timestep) :
    outTimes (emit m cur f next) = cur.1 :: outTimes next := by
  unfold emit outTimes
  rw [if_neg (by omega), if_pos h]
  simp [h]

theorem outTimes_unmet {m : Int} {cur : Int × List Nat} {f : GFrame α}
    {next : List (List Nat × GFrame α) × Option PyErr} (hm : cur.1 ≤ m) (h : cur.1 ≠ f.timestep) :
    outTimes (emit m cur f next) = outTimes next := by
  unfold emit outTimes
  rw [if_neg (by omega), if_neg h]

theorem catchSteps_past (t : Int) (s : Int × List Nat) (ss : List (Int × List Nat)) (hs : t ≤ s.1) :
    ∀ (q : List (Int × List Nat)) (x : Int × List Nat), (∀ y ∈ x :: q, y.1 < t) →
    catchSteps t x (q ++ s :: ss) = some (s, ss) := by
  intro q
  induction q with
  | nil =>
    intro x h
    rw [List.nil_append, catchSteps, if_pos (h x (by simp))]
    cases ss with
    | nil => rw [catchSteps, if_neg (by omega)]
    | cons a ss => rw [catchSteps, if_neg (by omega)]
  | cons y q ih =>
    intro x h
    rw [List.cons_append, catchSteps, if_pos (h x (by simp))]
    exact ih y (fun z hz => h z (by simp at hz ⊢; tauto))

/-- What is still yielded while a frame is held: the next step is used up with it. -/
def heldTimes (m : Int) (fe : Option PyErr) (q fs : List (GFrame α)) : List (Int × List Nat) → List Int
  | [] => []
  | _ :: ss => outTimes (expReader m fe (q ++ fs) ss)

theorem reader_taken (m : Int) (fe : Option PyErr) : ∀ (n : Nat) (fs : List (GFrame α)) (ss : List (Int × List Nat)),
    fs.length + ss.length ≤ n → (fs.map GFrame.timestep).Pairwise (· < ·) → (ss.map Prod.fst).Pairwise (· < ·) →
    (∀ s ∈ ss, s.1 ≤ m) →
    (outTimes (expReader m fe fs ss) = taken .level (timeline (fs.map GFrame.timestep) (ss.map Prod.fst))) ∧
    (∀ q : List (GFrame α), q ≠ [] → (∀ x ∈ q, (∀ f ∈ fs, x.timestep < f.timestep) ∧ ∀ s ∈ ss, x.timestep < s.1) →
      outTimes (expReader m fe (q ++ fs) ss) =
        taken .framesPassed (timeline (fs.map GFrame.timestep) (ss.map Prod.fst))) ∧
    (∀ q : List (Int × List Nat), q ≠ [] →
      (∀ x ∈ q, x.1 ≤ m ∧ (∀ f ∈ fs, x.1 < f.timestep) ∧ ∀ s ∈ ss, x.1 < s.1) →
      outTimes (expReader m fe fs (q ++ ss)) =
        taken .stepsPassed (timeline (fs.map GFrame.timestep) (ss.map Prod.fst))) ∧
    (∀ (cur : Int × List Nat) (q : List (Int × List Nat)),
      (∀ x ∈ cur :: q, x.1 ≤ m ∧ (∀ f ∈ fs, x.1 < f.timestep) ∧ ∀ s ∈ ss, x.1 < s.1) →
      outTimes (catchFrames m fe cur fs (q ++ ss)) =
        taken (.stepHeld (!q.isEmpty)) (timeline (fs.map GFrame.timestep) (ss.map Prod.fst))) ∧
    (∀ q : List (GFrame α), (∀ x ∈ q, (∀ f ∈ fs, x.timestep < f.timestep) ∧ ∀ s ∈ ss, x.timestep < s.1) →
      heldTimes m fe q fs ss =
        taken (.frameHeld (!q.isEmpty)) (timeline (fs.map GFrame.timestep) (ss.map Prod.fst))) := by
  intro n
  induction n with
  | zero =>
    intro fs ss hn _ _ _
    obtain rfl : fs = [] := List.eq_nil_of_length_eq_zero (by omega)
    obtain rfl : ss = [] := List.eq_nil_of_length_eq_zero (by omega)
    have ht : ∀ p, taken p (timeline (([] : List (GFrame α)).map GFrame.timestep)
        (([] : List (Int × List Nat)).map Prod.fst)) = [] := fun p => taken_none _ _ (timeline_left _)
    simp only [ht]
    refine ⟨outTimes_none (by simp), fun q _ _ => outTimes_none (by simp), fun q _ _ => outTimes_none (by simp),
      fun cur q _ => catchTimes_none (by simp), fun q _ => rfl⟩
  | succ n ih =>
    intro fs ss hn hf hs hm
    match fs, ss with
    | [], ss =>
      have ht : ∀ p, taken p (timeline (([] : List (GFrame α)).map GFrame.timestep) (ss.map Prod.fst)) = [] :=
        fun p => taken_none _ _ (timeline_left _)
      simp only [ht]
      refine ⟨outTimes_none (by simp), fun q _ hq => outTimes_none ?_, fun q _ _ => outTimes_none (by simp),
        fun cur q _ => catchTimes_none (by simp), fun q hq => ?_⟩
      · intro f hf s hs
        have := (hq f (by simpa using hf)).2 s hs
        omega
      · match ss, hq with
        | [], _ => rfl
        | s :: ss, hq =>
          refine outTimes_none ?_
          intro f hf t ht
          have := (hq f (by simpa using hf)).2 t (by simp [ht])
          omega
    | f :: fs, [] =>
      have ht : ∀ p, taken p (timeline ((f :: fs).map GFrame.timestep) (([] : List (Int × List Nat)).map Prod.fst)) = [] :=
        fun p => taken_none _ _ (timeline_right _)
      simp only [ht]
      refine ⟨outTimes_none (by simp), fun q _ hq => outTimes_none (by simp), fun q _ hq => outTimes_none ?_,
        fun cur q hq => catchTimes_none ?_, fun q hq => rfl⟩
      · intro g hg s hs
        have := (hq s (by simpa using hs)).2.1 g hg
        omega
      · intro g hg s hs
        have := (hq s (by simpa using hs)).2.1 g hg
        omega
    | f :: fs, s :: ss =>
      have hf' := List.pairwise_cons.1 hf
      have hs' := List.pairwise_cons.1 hs
      have hfs : ∀ g ∈ fs, f.timestep < g.timestep := fun g hg => hf'.1 _ (List.mem_map_of_mem hg)
      have hss : ∀ t ∈ ss, s.1 < t.1 := fun g hg => hs'.1 _ (List.mem_map_of_mem hg)
      have hms : ∀ t ∈ ss, t.1 ≤ m := fun t ht => hm t (by simp [ht])
      have hm0 : s.1 ≤ m := hm s (by simp)
      have hlen : fs.length + ss.length + 1 ≤ n := by simp at hn; omega
      -- a turn that skips frames
      have frames : ∀ (q : List (GFrame α)), q ≠ [] → (∀ x ∈ q, x.timestep < s.1) →
          expReader m fe (q ++ f :: fs) (s :: ss) = catchFrames m fe s (f :: fs) ss := by
        intro q hne hq
        match q, hne with
        | x :: q, _ =>
          rw [List.cons_append, expReader, if_pos (hq x (by simp))]
          exact catchFrames_skip m fe s ss _ q (fun g hg => hq g (by simp [hg]))
      -- a turn that skips steps
      have steps : ∀ (q : List (Int × List Nat)), q ≠ [] → (∀ x ∈ q, x.1 < f.timestep) → f.timestep ≤ s.1 →
          expReader m fe (f :: fs) (q ++ s :: ss) = emit m s f (expReader m fe fs ss) := by
        intro q hne hq hle
        match q, hne with
        | x :: q, _ =>
          have hx := hq x (by simp)
          rw [List.cons_append, expReader, if_neg (by omega), if_pos hx, catchSteps_past _ s ss hle q x hq]
      by_cases e : f.timestep = s.1
      · -- a common time
        obtain ⟨i1, i2, i3, -, -⟩ := ih fs ss (by omega) hf'.2 hs'.2 hms
        have ht : timeline ((f :: fs).map GFrame.timestep) ((s :: ss).map Prod.fst) =
            (s.1, .both) :: timeline (fs.map GFrame.timestep) (ss.map Prod.fst) := by
          rw [List.map_cons, List.map_cons, timeline, if_pos e, e]
        rw [ht]
        refine ⟨?_, ?_, ?_, ?_, ?_⟩
        · rw [expReader, if_neg (by omega), if_neg (by omega), outTimes_met hm0 e.symm, i1]
          rfl
        · intro q hne hq
          rw [frames q hne (fun x hx => (hq x hx).2 s (by simp)), catchFrames, if_neg (by omega),
            outTimes_met hm0 e.symm, i1]
          rfl
        · intro q hne hq
          rw [steps q hne (fun x hx => (hq x hx).2.1 f (by simp)) e.le, outTimes_met hm0 e.symm, i1]
          rfl
        · intro cur q hq
          have hc := hq cur (by simp)
          have hcf := hc.2.1 f (by simp)
          rw [catchFrames, if_neg (by omega), outTimes_unmet hc.1 (by omega),
            show q ++ s :: ss = (q ++ [s]) ++ ss by simp, i3 (q ++ [s]) (by simp) ?_]
          · rfl
          · intro x hx
            rcases List.mem_append.1 hx with hx | hx
            · have := hq x (by simp [hx])
              exact ⟨this.1, fun g hg => this.2.1 g (by simp [hg]), fun t ht => this.2.2 t (by simp [ht])⟩
            · obtain rfl := List.mem_singleton.1 hx
              exact ⟨hm0, fun g hg => by rw [← e]; exact hfs g hg, hss⟩
        · intro q hq
          change outTimes (expReader m fe (q ++ f :: fs) ss) = _
          rw [show q ++ f :: fs = (q ++ [f]) ++ fs by simp, i2 (q ++ [f]) (by simp) ?_]
          · rfl
          · intro x hx
            rcases List.mem_append.1 hx with hx | hx
            · have := hq x hx
              exact ⟨fun g hg => this.1 g (by simp [hg]), fun t ht => this.2 t (by simp [ht])⟩
            · obtain rfl := List.mem_singleton.1 hx
              exact ⟨hfs, fun t ht => by rw [e]; exact hss t ht⟩
      · rcases lt_or_gt_of_ne e with e | e
        · -- a frame
          obtain ⟨i1, i2, i3, -, i5⟩ := ih fs (s :: ss) (by simp; omega) hf'.2 hs hm
          have ht : timeline ((f :: fs).map GFrame.timestep) ((s :: ss).map Prod.fst) =
              (f.timestep, .frame) :: timeline (fs.map GFrame.timestep) ((s :: ss).map Prod.fst) := by
            rw [List.map_cons, List.map_cons, timeline, if_neg (by omega), if_pos e]
          rw [ht]
          have add : ∀ q : List (GFrame α), (∀ x ∈ q, (∀ g ∈ f :: fs, x.timestep < g.timestep) ∧
              ∀ t ∈ s :: ss, x.timestep < t.1) →
              ∀ x ∈ q ++ [f], (∀ g ∈ fs, x.timestep < g.timestep) ∧ ∀ t ∈ s :: ss, x.timestep < t.1 := by
            intro q hq x hx
            rcases List.mem_append.1 hx with hx | hx
            · exact ⟨fun g hg => (hq x hx).1 g (by simp [hg]), (hq x hx).2⟩
            · obtain rfl := List.mem_singleton.1 hx
              refine ⟨hfs, fun t ht => ?_⟩
              rcases List.mem_cons.1 ht with rfl | ht
              · exact e
              · have := hss t ht; omega
          refine ⟨?_, ?_, ?_, ?_, ?_⟩
          · exact i2 [f] (by simp) (add [] (by simp))
          · intro q hne hq
            rw [show q ++ f :: fs = (q ++ [f]) ++ fs by simp, i2 (q ++ [f]) (by simp) (add q hq)]
            rfl
          · intro q hne hq
            rw [steps q hne (fun x hx => (hq x hx).2.1 f (by simp)) e.le, outTimes_unmet hm0 (by omega)]
            exact i5 [] (by simp)
          · intro cur q hq
            have hc := hq cur (by simp)
            have hcf := hc.2.1 f (by simp)
            rw [catchFrames, if_neg (by omega), outTimes_unmet hc.1 (by omega)]
            match q, hq with
            | [], _ => exact i1
            | x :: q, hq =>
              refine i3 (x :: q) (by simp) (fun y hy => ?_)
              have := hq y (List.mem_cons_of_mem _ hy)
              exact ⟨this.1, fun g hg => this.2.1 g (by simp [hg]), this.2.2⟩
          · intro q hq
            have h := i5 (q ++ [f]) (add q hq)
            have hE : (q ++ [f]).isEmpty = false := by cases q <;> rfl
            rw [hE] at h
            unfold heldTimes at h ⊢
            rw [show q ++ f :: fs = (q ++ [f]) ++ fs by simp, h]
            rfl
        · -- a step
          obtain ⟨i1, i2, i3, i4, -⟩ := ih (f :: fs) ss (by simp; omega) hf hs'.2 hms
          have ht : timeline ((f :: fs).map GFrame.timestep) ((s :: ss).map Prod.fst) =
              (s.1, .step) :: timeline ((f :: fs).map GFrame.timestep) (ss.map Prod.fst) := by
            rw [List.map_cons, List.map_cons, timeline, if_neg (by omega), if_neg (by omega)]
          rw [ht]
          have new : s.1 ≤ m ∧ (∀ g ∈ f :: fs, s.1 < g.timestep) ∧ ∀ t ∈ ss, s.1 < t.1 := by
            refine ⟨hm0, fun g hg => ?_, hss⟩
            rcases List.mem_cons.1 hg with rfl | hg
            · exact e
            · have := hfs g hg; omega
          have add : ∀ q : List (Int × List Nat), (∀ x ∈ q, x.1 ≤ m ∧ (∀ g ∈ f :: fs, x.1 < g.timestep) ∧
              ∀ t ∈ s :: ss, x.1 < t.1) →
              ∀ x ∈ q ++ [s], x.1 ≤ m ∧ (∀ g ∈ f :: fs, x.1 < g.timestep) ∧ ∀ t ∈ ss, x.1 < t.1 := by
            intro q hq x hx
            rcases List.mem_append.1 hx with hx | hx
            · exact ⟨(hq x hx).1, (hq x hx).2.1, fun t ht => (hq x hx).2.2 t (by simp [ht])⟩
            · obtain rfl := List.mem_singleton.1 hx
              exact new
          refine ⟨?_, ?_, ?_, ?_, ?_⟩
          · exact i3 [s] (by simp) (add [] (by simp))
          · intro q hne hq
            rw [frames q hne (fun x hx => (hq x hx).2 s (by simp))]
            exact i4 s [] (by simpa using new)
          · intro q hne hq
            rw [show q ++ s :: ss = (q ++ [s]) ++ ss by simp, i3 (q ++ [s]) (by simp) (add q hq)]
            rfl
          · intro cur q hq
            have h := i4 cur (q ++ [s]) (add (cur :: q) hq)
            have hE : (q ++ [s]).isEmpty = false := by cases q <;> rfl
            rw [hE] at h
            rw [show q ++ s :: ss = (q ++ [s]) ++ ss by simp, h]
            rfl
          · intro q hq
            unfold heldTimes
            match q, hq with
            | [], _ => exact i1
            | x :: q, hq =>
              exact i2 (x :: q) (by simp) (fun y hy => ⟨(hq y hy).1, fun t ht => (hq y hy).2 t (by simp [ht])⟩)

theorem emit_end {m : Int} {cur : Int × List Nat} {f : GFrame α}
    {next : List (List Nat × GFrame α) × Option PyErr} (hm : cur.1 ≤ m) : (emit m cur f next).2 = next.2 := by
  unfold emit
  rw [if_neg (by omega)]
  split <;> rfl

theorem finish_cons (p : Place) (x : Int × Mark) (l : List (Int × Mark)) :
    finish p (x :: l) = finish (p.next x.2) l := rfl

theorem finish_steps (ss : List Int) : ∀ p : Place, p.framesDone = true →
    (finish p (timeline [] ss)).framesDone = true := by
  unfold timeline
  induction ss with
  | nil => intro p h; exact h
  | cons s ss ih =>
    intro p h
    rw [List.map_cons, finish_cons]
    apply ih
    cases p <;> simp_all [Place.framesDone, Place.next]

theorem finish_frames (fs : List Int) : ∀ p : Place, p.framesDone = false →
    (finish p (timeline fs [])).framesDone = false := by
  have e : timeline fs [] = fs.map (fun t => (t, .frame)) := by cases fs <;> simp [timeline]
  rw [e]
  induction fs with
  | nil => intro p h; exact h
  | cons s ss ih =>
    intro p h
    rw [List.map_cons, finish_cons]
    refine ih ?_ _ ?_
    · cases ss <;> simp [timeline]
    · cases p <;> simp_all [Place.framesDone, Place.next]

/-- How the reader ends while a frame is held. -/
def heldEnd (m : Int) (fe : Option PyErr) (q fs : List (GFrame α)) : List (Int × List Nat) → Option PyErr
  | [] => none
  | _ :: ss => (expReader m fe (q ++ fs) ss).2

/-- How the reader ends at a place. -/
def endAt (fe : Option PyErr) (fs : List (GFrame α)) (ss : List (Int × List Nat)) (p : Place) : Option PyErr :=
  if (finish p (timeline (fs.map GFrame.timestep) (ss.map Prod.fst))).framesDone then fe else none

theorem reader_ends (m : Int) (fe : Option PyErr) : ∀ (n : Nat) (fs : List (GFrame α)) (ss : List (Int × List Nat)),
    fs.length + ss.length ≤ n → (fs.map GFrame.timestep).Pairwise (· < ·) → (ss.map Prod.fst).Pairwise (· < ·) →
    (∀ s ∈ ss, s.1 ≤ m) →
    ((expReader m fe fs ss).2 = endAt fe fs ss .level) ∧
    (∀ q : List (GFrame α), q ≠ [] → (∀ x ∈ q, (∀ f ∈ fs, x.timestep < f.timestep) ∧ ∀ s ∈ ss, x.timestep < s.1) →
      (expReader m fe (q ++ fs) ss).2 = endAt fe fs ss .framesPassed) ∧
    (∀ q : List (Int × List Nat), q ≠ [] →
      (∀ x ∈ q, x.1 ≤ m ∧ (∀ f ∈ fs, x.1 < f.timestep) ∧ ∀ s ∈ ss, x.1 < s.1) →
      (expReader m fe fs (q ++ ss)).2 = endAt fe fs ss .stepsPassed) ∧
    (∀ (cur : Int × List Nat) (q : List (Int × List Nat)),
      (∀ x ∈ cur :: q, x.1 ≤ m ∧ (∀ f ∈ fs, x.1 < f.timestep) ∧ ∀ s ∈ ss, x.1 < s.1) →
      (catchFrames m fe cur fs (q ++ ss)).2 = endAt fe fs ss (.stepHeld (!q.isEmpty))) ∧
    (∀ q : List (GFrame α), (∀ x ∈ q, (∀ f ∈ fs, x.timestep < f.timestep) ∧ ∀ s ∈ ss, x.timestep < s.1) →
      heldEnd m fe q fs ss = endAt fe fs ss (.frameHeld (!q.isEmpty))) := by
  intro n
  -- all frames before the steps
  have passed : ∀ (q : List (GFrame α)) (ss : List (Int × List Nat)), q ≠ [] →
      (∀ x ∈ q, ∀ s ∈ ss, x.timestep < s.1) →
      (expReader m fe q ss).2 =
        if (finish .framesPassed (timeline [] (ss.map Prod.fst))).framesDone then fe else none := by
    intro q ss hne hq
    match q, hne, ss with
    | x :: q, _, [] => rw [expReader]; simp [timeline, finish, Place.framesDone]
    | x :: q, _, s :: ss =>
      have h := catchFrames_skip m fe s ss [] q (fun g hg => hq g (by simp [hg]) s (by simp))
      rw [List.append_nil] at h
      rw [expReader, if_pos (hq x (by simp) s (by simp)), h, catchFrames, if_pos]
      have := finish_steps (ss.map Prod.fst) (.stepHeld false) rfl
      unfold timeline at this ⊢
      exact this
  -- all steps before the frames
  have over : ∀ (fs : List (GFrame α)) (q : List (Int × List Nat)), q ≠ [] →
      (∀ x ∈ q, ∀ f ∈ fs, x.1 < f.timestep) →
      (expReader m fe fs q).2 =
        if (finish .stepsPassed (timeline (fs.map GFrame.timestep) [])).framesDone then fe else none := by
    intro fs q hne hq
    match fs, q, hne with
    | [], q, _ => rw [expReader]; simp [timeline, finish, Place.framesDone]
    | f :: fs, x :: q, _ =>
      have hx := hq x (by simp) f (by simp)
      have hno : ∀ (q : List (Int × List Nat)) (x : Int × List Nat), (∀ y ∈ x :: q, y.1 < f.timestep) →
          catchSteps f.timestep x q = none := by
        intro q
        induction q with
        | nil => intro x h; rw [catchSteps, if_pos (h x (by simp))]
        | cons y q ih =>
          intro x h
          rw [catchSteps, if_pos (h x (by simp))]
          exact ih y (fun z hz => h z (by simp at hz ⊢; tauto))
      rw [expReader, if_neg (by omega), if_pos hx, hno q x (fun y hy => hq y hy f (by simp)), if_neg]
      have := finish_frames (fs.map GFrame.timestep) (.frameHeld false) rfl
      have e : timeline (fs.map GFrame.timestep) [] = (fs.map GFrame.timestep).map (fun t => (t, .frame)) := by
        cases fs <;> simp [timeline]
      rw [e] at this
      rw [List.map_cons, timeline, List.map_cons, finish_cons]
      simpa [Place.next] using this
  induction n with
  | zero =>
    intro fs ss hn _ _ _
    obtain rfl : fs = [] := List.eq_nil_of_length_eq_zero (by omega)
    obtain rfl : ss = [] := List.eq_nil_of_length_eq_zero (by omega)
    refine ⟨?_, ?_, ?_, ?_, ?_⟩
    · rw [expReader]; simp [endAt, timeline, finish, Place.framesDone]
    · intro q hne _
      match q, hne with
      | x :: q, _ => rw [List.append_nil, expReader]; simp [endAt, timeline, finish, Place.framesDone]
    · intro q _ _; rw [expReader]; simp [endAt, timeline, finish, Place.framesDone]
    · intro cur q _; rw [catchFrames]; simp [endAt, timeline, finish, Place.framesDone]
    · intro q _; simp [endAt, heldEnd, timeline, finish, Place.framesDone]
  | succ n ih =>
    intro fs ss hn hf hs hm
    match fs, ss with
    | [], ss =>
      have keep : ∀ p : Place, p.framesDone = true → endAt fe ([] : List (GFrame α)) ss p = fe := by
        intro p hp
        exact if_pos (finish_steps (ss.map Prod.fst) p hp)
      refine ⟨?_, ?_, ?_, ?_, ?_⟩
      · rw [expReader, keep _ rfl]
      · intro q hne hq
        rw [List.append_nil]
        exact passed q ss hne (fun x hx => (hq x hx).2)
      · intro q _ _; rw [expReader, keep _ rfl]
      · intro cur q _; rw [catchFrames, keep _ rfl]
      · intro q hq
        match ss, hq with
        | [], _ => simp [endAt, heldEnd, timeline, finish, Place.framesDone]
        | s :: ss, hq =>
          have ht : ∀ p, endAt fe ([] : List (GFrame α)) (s :: ss) p = if (finish (p.next .step) (timeline [] (ss.map Prod.fst))).framesDone
              then fe else none := by
            intro p
            simp only [endAt, List.map_nil, List.map_cons, timeline, finish_cons]
          rw [ht]
          unfold heldEnd
          simp only [List.append_nil]
          match q, hq with
          | [], _ => rw [expReader]; exact (if_pos (finish_steps (ss.map Prod.fst) .level rfl)).symm
          | x :: q, hq => exact passed (x :: q) ss (by simp) (fun y hy t ht => (hq y hy).2 t (by simp [ht]))
    | f :: fs, [] =>
      have drop : ∀ p : Place, p.framesDone = false → endAt fe (f :: fs) [] p = none := by
        intro p hp
        exact if_neg (by rw [List.map_nil, finish_frames _ p hp]; simp)
      have ht : ∀ p, endAt fe (f :: fs) [] p = if (finish (p.next .frame) (timeline (fs.map GFrame.timestep) [])).framesDone
          then fe else none := by
        intro p
        have e : timeline (fs.map GFrame.timestep) [] = (fs.map GFrame.timestep).map (fun t => (t, .frame)) := by
          cases fs <;> simp [timeline]
        rw [e]
        simp only [endAt, List.map_nil, List.map_cons, timeline, finish_cons]
      refine ⟨?_, ?_, ?_, ?_, ?_⟩
      · rw [expReader, ht]
        rw [finish_frames _ _ rfl]
        rfl
      · intro q hne _
        rw [drop _ rfl]
        match q, hne with
        | x :: q, _ => rw [List.cons_append, expReader]
      · intro q hne hq
        rw [List.append_nil]
        exact over (f :: fs) q hne (fun x hx => (hq x hx).2.1)
      · intro cur q hq
        have hc := hq cur (by simp)
        have hcf := hc.2.1 f (by simp)
        rw [List.append_nil, catchFrames, if_neg (by omega), emit_end hc.1, ht]
        match q, hq with
        | [], _ =>
          match fs with
          | [] => rw [expReader]; simp [timeline, finish, Place.framesDone, Place.next]
          | g :: fs =>
            rw [expReader, List.map_cons, timeline, List.map_cons, finish_cons]
            have := finish_frames (fs.map GFrame.timestep) .framesPassed rfl
            have e : timeline (fs.map GFrame.timestep) [] =
                (fs.map GFrame.timestep).map (fun t => (t, .frame)) := by
              cases fs <;> simp [timeline]
            rw [e] at this
            simp only [List.isEmpty_nil, Bool.not_true, Place.next, Bool.false_eq_true, if_false]
            rw [this]
            rfl
        | x :: q, hq =>
          exact over fs (x :: q) (by simp) (fun y hy g hg => (hq y (List.mem_cons_of_mem _ hy)).2.1 g (by simp [hg]))
      · intro q _
        rw [drop _ rfl]
        rfl
    | f :: fs, s :: ss =>
      have hf' := List.pairwise_cons.1 hf
      have hs' := List.pairwise_cons.1 hs
      have hfs : ∀ g ∈ fs, f.timestep < g.timestep := fun g hg => hf'.1 _ (List.mem_map_of_mem hg)
      have hss : ∀ t ∈ ss, s.1 < t.1 := fun g hg => hs'.1 _ (List.mem_map_of_mem hg)
      have hms : ∀ t ∈ ss, t.1 ≤ m := fun t ht => hm t (by simp [ht])
      have hm0 : s.1 ≤ m := hm s (by simp)
      have hlen : fs.length + ss.length + 1 ≤ n := by simp at hn; omega
      have frames : ∀ (q : List (GFrame α)), q ≠ [] → (∀ x ∈ q, x.timestep < s.1) →
          expReader m fe (q ++ f :: fs) (s :: ss) = catchFrames m fe s (f :: fs) ss := by
        intro q hne hq
        match q, hne with
        | x :: q, _ =>
          rw [List.cons_append, expReader, if_pos (hq x (by simp))]
          exact catchFrames_skip m fe s ss _ q (fun g hg => hq g (by simp [hg]))
      have steps : ∀ (q : List (Int × List Nat)), q ≠ [] → (∀ x ∈ q, x.1 < f.timestep) → f.timestep ≤ s.1 →
          expReader m fe (f :: fs) (q ++ s :: ss) = emit m s f (expReader m fe fs ss) := by
        intro q hne hq hle
        match q, hne with
        | x :: q, _ =>
          have hx := hq x (by simp)
          rw [List.cons_append, expReader, if_neg (by omega), if_pos hx, catchSteps_past _ s ss hle q x hq]
      by_cases e : f.timestep = s.1
      · obtain ⟨i1, i2, i3, -, -⟩ := ih fs ss (by omega) hf'.2 hs'.2 hms
        have ht : ∀ p, endAt fe (f :: fs) (s :: ss) p = if (finish (p.next .both)
            (timeline (fs.map GFrame.timestep) (ss.map Prod.fst))).framesDone then fe else none := by
          intro p
          simp only [endAt]
          rw [List.map_cons, List.map_cons, timeline, if_pos e, finish_cons]
        simp only [ht]
        refine ⟨?_, ?_, ?_, ?_, ?_⟩
        · rw [expReader, if_neg (by omega), if_neg (by omega), emit_end hm0, i1]
          rfl
        · intro q hne hq
          rw [frames q hne (fun x hx => (hq x hx).2 s (by simp)), catchFrames, if_neg (by omega),
            emit_end hm0, i1]
          rfl
        · intro q hne hq
          rw [steps q hne (fun x hx => (hq x hx).2.1 f (by simp)) e.le, emit_end hm0, i1]
          rfl
        · intro cur q hq
          have hc := hq cur (by simp)
          have hcf := hc.2.1 f (by simp)
          rw [catchFrames, if_neg (by omega), emit_end hc.1,
            show q ++ s :: ss = (q ++ [s]) ++ ss by simp, i3 (q ++ [s]) (by simp) ?_]
          · rfl
          · intro x hx
            rcases List.mem_append.1 hx with hx | hx
            · have := hq x (by simp [hx])
              exact ⟨this.1, fun g hg => this.2.1 g (by simp [hg]), fun t ht => this.2.2 t (by simp [ht])⟩
            · obtain rfl := List.mem_singleton.1 hx
              exact ⟨hm0, fun g hg => by rw [← e]; exact hfs g hg, hss⟩
        · intro q hq
          change (expReader m fe (q ++ f :: fs) ss).2 = _
          rw [show q ++ f :: fs = (q ++ [f]) ++ fs by simp, i2 (q ++ [f]) (by simp) ?_]
          · rfl
          · intro x hx
            rcases List.mem_append.1 hx with hx | hx
            · have := hq x hx
              exact ⟨fun g hg => this.1 g (by simp [hg]), fun t ht => this.2 t (by simp [ht])⟩
            · obtain rfl := List.mem_singleton.1 hx
              exact ⟨hfs, fun t ht => by rw [e]; exact hss t ht⟩
      · rcases lt_or_gt_of_ne e with e | e
        · obtain ⟨i1, i2, i3, -, i5⟩ := ih fs (s :: ss) (by simp; omega) hf'.2 hs hm
          have ht : ∀ p, endAt fe (f :: fs) (s :: ss) p = if (finish (p.next .frame)
              (timeline (fs.map GFrame.timestep) ((s :: ss).map Prod.fst))).framesDone then fe else none := by
            intro p
            simp only [endAt]
            rw [List.map_cons, List.map_cons, timeline, if_neg (show ¬ f.timestep = s.1 by omega), if_pos e, finish_cons]
          simp only [ht]
          have add : ∀ q : List (GFrame α), (∀ x ∈ q, (∀ g ∈ f :: fs, x.timestep < g.timestep) ∧
              ∀ t ∈ s :: ss, x.timestep < t.1) →
              ∀ x ∈ q ++ [f], (∀ g ∈ fs, x.timestep < g.timestep) ∧ ∀ t ∈ s :: ss, x.timestep < t.1 := by
            intro q hq x hx
            rcases List.mem_append.1 hx with hx | hx
            · exact ⟨fun g hg => (hq x hx).1 g (by simp [hg]), (hq x hx).2⟩
            · obtain rfl := List.mem_singleton.1 hx
              refine ⟨hfs, fun t ht => ?_⟩
              rcases List.mem_cons.1 ht with rfl | ht
              · exact e
              · have := hss t ht; omega
          refine ⟨?_, ?_, ?_, ?_, ?_⟩
          · exact i2 [f] (by simp) (add [] (by simp))
          · intro q hne hq
            rw [show q ++ f :: fs = (q ++ [f]) ++ fs by simp, i2 (q ++ [f]) (by simp) (add q hq)]
            rfl
          · intro q hne hq
            rw [steps q hne (fun x hx => (hq x hx).2.1 f (by simp)) e.le, emit_end hm0]
            exact i5 [] (by simp)
          · intro cur q hq
            have hc := hq cur (by simp)
            have hcf := hc.2.1 f (by simp)
            rw [catchFrames, if_neg (by omega), emit_end hc.1]
            match q, hq with
            | [], _ => exact i1
            | x :: q, hq =>
              refine i3 (x :: q) (by simp) (fun y hy => ?_)
              have := hq y (List.mem_cons_of_mem _ hy)
              exact ⟨this.1, fun g hg => this.2.1 g (by simp [hg]), this.2.2⟩
          · intro q hq
            have h := i5 (q ++ [f]) (add q hq)
            have hE : (q ++ [f]).isEmpty = false := by cases q <;> rfl
            rw [hE] at h
            change (expReader m fe (q ++ f :: fs) ss).2 = _
            change (expReader m fe ((q ++ [f]) ++ fs) ss).2 = _ at h
            rw [show q ++ f :: fs = (q ++ [f]) ++ fs by simp, h]
            rfl
        · obtain ⟨i1, i2, i3, i4, -⟩ := ih (f :: fs) ss (by simp; omega) hf hs'.2 hms
          have ht : ∀ p, endAt fe (f :: fs) (s :: ss) p = if (finish (p.next .step)
              (timeline ((f :: fs).map GFrame.timestep) (ss.map Prod.fst))).framesDone then fe else none := by
            intro p
            simp only [endAt]
            rw [List.map_cons, List.map_cons, timeline, if_neg (show ¬ f.timestep = s.1 by omega),
              if_neg (show ¬ f.timestep < s.1 by omega), finish_cons]
          simp only [ht]
          have new : s.1 ≤ m ∧ (∀ g ∈ f :: fs, s.1 < g.timestep) ∧ ∀ t ∈ ss, s.1 < t.1 := by
            refine ⟨hm0, fun g hg => ?_, hss⟩
            rcases List.mem_cons.1 hg with rfl | hg
            · exact e
            · have := hfs g hg; omega
          have add : ∀ q : List (Int × List Nat), (∀ x ∈ q, x.1 ≤ m ∧ (∀ g ∈ f :: fs, x.1 < g.timestep) ∧
              ∀ t ∈ s :: ss, x.1 < t.1) →
              ∀ x ∈ q ++ [s], x.1 ≤ m ∧ (∀ g ∈ f :: fs, x.1 < g.timestep) ∧ ∀ t ∈ ss, x.1 < t.1 := by
            intro q hq x hx
            rcases List.mem_append.1 hx with hx | hx
            · exact ⟨(hq x hx).1, (hq x hx).2.1, fun t ht => (hq x hx).2.2 t (by simp [ht])⟩
            · obtain rfl := List.mem_singleton.1 hx
              exact new
          refine ⟨?_, ?_, ?_, ?_, ?_⟩
          · exact i3 [s] (by simp) (add [] (by simp))
          · intro q hne hq
            rw [frames q hne (fun x hx => (hq x hx).2 s (by simp))]
            exact i4 s [] (by simpa using new)
          · intro q hne hq
            rw [show q ++ s :: ss = (q ++ [s]) ++ ss by simp, i3 (q ++ [s]) (by simp) (add q hq)]
            rfl
          · intro cur q hq
            have h := i4 cur (q ++ [s]) (add (cur :: q) hq)
            have hE : (q ++ [s]).isEmpty = false := by cases q <;> rfl
            rw [hE] at h
            rw [show q ++ s :: ss = (q ++ [s]) ++ ss by simp, h]
            rfl
          · intro q hq
            change (expReader m fe (q ++ f :: fs) ss).2 = _
            match q, hq with
            | [], _ => exact i1
            | x :: q, hq =>
              exact i2 (x :: q) (by simp) (fun y hy => ⟨(hq y hy).1, fun t ht => (hq y hy).2 t (by simp [ht])⟩)

/-- All common times are taken iff nothing is held at any of them. -/
theorem taken_all : ∀ (l : List (Int × Mark)) (p : Place),
    taken p l = (l.filter (fun x => decide (x.2 = .both))).map Prod.fst ↔ NoneHeld p l := by
  have short : ∀ (l : List (Int × Mark)) (p : Place),
      (taken p l).length ≤ ((l.filter (fun x => decide (x.2 = .both))).map Prod.fst).length := by
    intro l
    induction l with
    | nil => intro p; simp [taken]
    | cons x l ih =>
      obtain ⟨t, k⟩ := x
      intro p
      cases k with
      | both =>
        have := ih (p.next .both)
        simp only [taken]
        split <;> simp at this ⊢ <;> omega
      | frame => simpa [taken] using ih (p.next .frame)
      | step => simpa [taken] using ih (p.next .step)
  intro l
  induction l with
  | nil => intro p; simp [taken, NoneHeld]
  | cons x l ih =>
    obtain ⟨t, k⟩ := x
    intro p
    cases k with
    | both =>
      simp only [taken, NoneHeld, forall_const]
      cases h : p.holds with
      | true =>
        simp only [if_true, Bool.true_eq_false, false_and, iff_false]
        intro e
        have := short l (p.next .both)
        rw [e] at this
        simp at this
      | false =>
        rw [if_neg (by simp)]
        simpa using ih (p.next .both)
    | frame => simpa [taken, NoneHeld] using ih (p.next .frame)
    | step => simpa [taken, NoneHeld] using ih (p.next .step)

/-- The times with the mark `both` are the common ones. -/
theorem timeline_both : ∀ (n : Nat) (fs ss : List Int), fs.length + ss.length ≤ n → fs.Pairwise (· < ·) →
    ss.Pairwise (· < ·) →
    ((timeline fs ss).filter (fun x => decide (x.2 = .both))).map Prod.fst = fs.filter (fun t => decide (t ∈ ss)) := by
  intro n
  induction n with
  | zero =>
    intro fs ss hn _ _
    obtain rfl : fs = [] := List.eq_nil_of_length_eq_zero (by omega)
    obtain rfl : ss = [] := List.eq_nil_of_length_eq_zero (by omega)
    simp [timeline]
  | succ n ih =>
    intro fs ss hn hf hs
    match fs, ss with
    | [], ss => simp [timeline]
    | f :: fs, [] => simp [timeline]
    | f :: fs, s :: ss =>
      have hf' := List.pairwise_cons.1 hf
      have hs' := List.pairwise_cons.1 hs
      simp only [List.length_cons] at hn
      by_cases e : f = s
      · subst e
        rw [timeline, if_pos rfl]
        have := ih fs ss (by omega) hf'.2 hs'.2
        simp only [List.filter_cons, List.mem_cons, true_or, decide_true, if_true, List.map_cons, this]
        congr 1
        apply List.filter_congr
        intro t ht
        have := hf'.1 t ht
        have : t ≠ f := by omega
        simp [this]
      · by_cases e' : f < s
        · rw [timeline, if_neg e, if_pos e']
          have := ih fs (s :: ss) (by simp; omega) hf'.2 hs
          have hn : f ∉ s :: ss := by
            intro hmem
            rcases List.mem_cons.1 hmem with h | h
            · exact e h
            · have := hs'.1 f h; omega
          rw [List.filter_cons_of_neg (by simp), this, List.filter_cons_of_neg (by simpa using hn)]
        · rw [timeline, if_neg e, if_neg e']
          have := ih (f :: fs) ss (by simp; omega) hf hs'.2
          rw [List.filter_cons_of_neg (by simp), this]
          apply List.filter_congr
          intro t ht
          have : t ≠ s := by
            rcases List.mem_cons.1 ht with rfl | h
            · exact e
            · have := hf'.1 t h; omega
          simp [this]

end Verif.Gsd
