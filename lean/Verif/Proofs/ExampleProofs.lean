import Verif.Model.Examples
import Verif.Proofs.ValidProofs
import Verif.Proofs.BoundedRun
import Verif.Props.GoalProps
import Verif.Props.ArchProps

/-! For the properties of the example programs: a network that is made, trained, used and checked. -/

set_option linter.all false

namespace Snn.Examples

open Snn.Spec Snn.Goal Snn.HistoryProps Snn.SafeProps Snn.WaitSpec Snn.AccuracyProps Snn.EvalProps Snn.DeadlineProps Snn.GoalProps Snn.TrainSpec Snn.TrainProofs Snn.Bounded Snn.Valid

theorem trainStep_frame {F : Type} [Flt F] [FTrans F] [Add F] [Sub F] [Mul F] [Div F] [Neg F] {env : Env F} {b : Int} {r r' : Run F} {ret : Bool}
    (h : r.trainStep env b = .ok (ret, r')) : Frame r.data r'.data := by
  unfold Run.trainStep at h
  simp only at h
  split at h
  · cases h
    exact Frame.refl _
  · obtain ⟨need, _, h⟩ := Res.bind_eq_ok.1 h
    obtain ⟨⟨x, d1⟩, k1, h⟩ := Res.bind_eq_ok.1 h
    obtain ⟨first, _, h⟩ := Res.bind_eq_ok.1 h
    cases need
    · simp only [Bool.false_eq_true, if_false] at h
      obtain ⟨⟨o, net, d⟩, h1, h⟩ := Res.bind_eq_ok.1 h
      cases h
      exact (getTrainingData_same k1).frame
    · simp only [if_true] at h
      obtain ⟨⟨y, d2⟩, k2, h⟩ := Res.bind_eq_ok.1 h
      obtain ⟨⟨net, d⟩, h1, h⟩ := Res.bind_eq_ok.1 h
      cases h
      exact ((getTrainingData_same k1).trans (getTrainingOutputs_same k2)).frame

variable {arch : List (LayerModel ℝ)} {s s' : List Nat} {opt : Sgd ℝ} {env : Env ℝ} {d : Draws ℝ} {data : Data ℝ} {wait : Wait ℝ}

/-- What the programs know after `train`. -/
structure After (arch : List (LayerModel ℝ)) (ni no : Nat) (data : Data ℝ) (r : Run ℝ) : Prop where
  net : SafeNet ni no r.snn.net
  rows : SafeData ni no r.data
  frame : Frame data r.data
  valid : ∃ c, r.snn.net.isValid = .ok c
  used : ∀ (x : List ℝ) (t : Bool) out net, r.snn.net.output x t = .ok (out, net) → ∃ c, net.isValid = .ok c

theorem after_train (h : WellFormed arch s s') (he : EndsWithNeurons arch) {snn : Snn ℝ} {d' : Draws ℝ} (hm : Snn.make arch opt d = .ok (snn, d'))
    {r r' : Run ℝ} (hr : r.snn = snn) (hd : Fitted s.prod s'.prod r.data) (hb : (1 : Int) ≤ r.data.training.size) {fuel : Nat}
    (ht : r.train env wait 1 1 fuel = .ok r') : After arch s.prod s'.prod r.data r' := by
  obtain ⟨hn, hi⟩ := make_safe h he hm
  rw [← hr] at hn hi
  letI : FText ℝ := ⟨fun _ => true⟩
  have hreach : Reach arch r'.snn := by
    refine Reach.call (c := .train env r.data wait 1 1 fuel) (r := r) (r' := r') (by rw [hr]; exact Reach.make hm) ?_
    exact ht
  have hsafe := train_safe (env := env) (wait := wait) (ef := 1) (fuel := fuel) hn hd.safe (le_refl 1) hb (fun h => absurd rfl h) hi
  rw [ht] at hsafe
  rcases hsafe with ⟨r1, h1, h2, h3, h4⟩ | ⟨_, h1⟩
  swap
  · cases h1
  cases h1
  have hframe : Frame r.data r'.data := train_induct_data (P := fun _ d => Frame r.data d)
    (fun n d d' g h1 h2 => frame_trans h1 (shuffle_frame h2))
    (fun r r' ret h1 h2 => frame_trans h1 (trainStep_frame h2))
    (fun r r' h1 h2 => by rw [(evaluate_frame h2).1]; exact h1) (Frame.refl _) ht
  refine ⟨h2, h3, hframe, ?_, ?_⟩
  · obtain ⟨a, b⟩ := reach_returns hreach
    exact net_returns a b
  · intro x t out net ho
    have : Reach arch ({ r'.snn with net := net } : Snn ℝ) := by
      refine Reach.call (c := .computeOutput x t) (r := r') (r' := { r' with snn := { r'.snn with net := net } }) hreach ?_
      simp only [Call.run, Snn.computeOutput, ho]
      rfl
    obtain ⟨a, b⟩ := reach_returns this
    exact net_returns a b

section
variable {F : Type} [Field F] [LinearOrder F] [IsStrictOrderedRing F] [FTrans F]

theorem goal_ok : ∃ w : Wait F, goal = .ok w ∧ LimitedTo w 2000 ∧ Requests w 1 := by
  have h2 : toInt32 2 = 2 := by decide
  have h2000 : toInt32 2000 = 2000 := by decide
  have e : (goal : Res (Wait F)) = (Expr.or (.crit (.acc (1 : F))) (.crit (.ms 2000))).eval := by
    unfold goal litS mulInt32
    rw [h2, if_pos (by norm_num)]
    simp only [Expr.eval, Crit.wait, litMs, h2000, Res.ok_bind, Res.pure_eq]
    norm_num [lit, Flt.lit]
  obtain ⟨w, h1, h2⟩ := C107_limits (F := F) (N := 2000) (.or (.crit (.acc (1 : F))) (.crit (.ms 2000))) (by simp [Expr.onlyOr])
    (by intro c hc; simp [Expr.crits] at hc; rcases hc with rfl | rfl <;> simp [Crit.writable] <;> norm_num)
    (by intro c hc; simp [Expr.crits] at hc; rcases hc with rfl | rfl <;> simp [Crit.positive] <;> norm_num) (by simp [Expr.crits])
  obtain ⟨w', h1', h2'⟩ := C108_requests (a := (1 : F)) (.or (.crit (.acc (1 : F))) (.crit (.ms 2000))) (by simp [Expr.onlyOr])
    (by intro c hc; simp [Expr.crits] at hc; rcases hc with rfl | rfl <;> simp [Crit.writable] <;> norm_num)
    (by intro c hc; simp [Expr.crits] at hc; rcases hc with rfl | rfl <;> simp [Crit.positive] <;> norm_num) (by simp [Expr.crits])
  rw [h1] at h1'
  cases h1'
  exact ⟨w, by rw [e, h1], h2, h2'⟩

end

end Snn.Examples
