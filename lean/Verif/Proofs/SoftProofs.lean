import Verif.Spec.SoftSpec
import Verif.Proofs.GradArch
import Verif.Props.LayerOptProps
import Mathlib.Analysis.SpecialFunctions.Log.Deriv
import Mathlib.Algebra.BigOperators.Field
import Mathlib.Analysis.SpecialFunctions.ExpDeriv

/-! A network that ends with Softmax: the same network without it, followed by the softmax function. -/

set_option linter.all false

namespace Snn.Grad

open Finset Snn.Spec Snn.NeuronSpec
open Snn.LayerOptProps (C45_softmax_value)

/-- The layer without its optimizers. -/
def bare (l : Layer ℝ) : Layer ℝ := { l with optimizers := [] }

/-- The layers, the last one without its optimizers. -/
def bareLast : List (Layer ℝ) → List (Layer ℝ)
  | [] => []
  | [l] => [bare l]
  | l :: l' :: ls => l :: bareLast (l' :: ls)

/-- The last layer, and only this one, has the optimizer Softmax. -/
inductive SoftLs : Bool → List (Layer ℝ) → Prop
  | last {first : Bool} {l : Layer ℝ} (ho : l.optimizers = [.softmax]) (h : PlainL first (bare l)) : SoftLs first [l]
  | cons {first : Bool} {l : Layer ℝ} {ls : List (Layer ℝ)} (h : PlainL first l) (hs : SoftLs false ls) : SoftLs first (l :: ls)

/-- The optimizers of the last layer. -/
def EndsSoft (ls : List (Layer ℝ)) : Prop := ∃ f l, ls = f ++ [l] ∧ l.optimizers = [.softmax]

theorem bareLast_append (f : List (Layer ℝ)) (l : Layer ℝ) : bareLast (f ++ [l]) = f ++ [bare l] := by
  induction f with
  | nil => rfl
  | cons a f ih =>
    cases f with
    | nil => rfl
    | cons b f => simp only [List.cons_append, bareLast] at ih ⊢; rw [ih]

theorem SoftLs.ends {first : Bool} {ls : List (Layer ℝ)} (h : SoftLs first ls) : EndsSoft ls := by
  induction h with
  | @last _ l ho h => exact ⟨[], l, rfl, ho⟩
  | @cons _ a _ h hs ih => obtain ⟨f, l, rfl, hl⟩ := ih; exact ⟨a :: f, l, rfl, hl⟩

theorem SoftLs.plain {first : Bool} {ls : List (Layer ℝ)} (h : SoftLs first ls) : PlainLs first (bareLast ls) := by
  induction h with
  | last ho h => exact .cons h .nil
  | @cons _ a ls h hs ih =>
    cases ls with
    | nil => cases hs
    | cons b ls => exact .cons h ih

theorem bare_kin {l l' : Layer ℝ} (h : l.Kin l') : (bare l).Kin (bare l') := ⟨h.inputs, rfl, h.body⟩

theorem soft_kin {l l' : Layer ℝ} (ho : l.optimizers = [.softmax]) (h : l.Kin l') : l'.optimizers = [.softmax] := by
  have := h.opts
  rw [ho] at this
  cases hl : l'.optimizers with
  | nil => rw [hl] at this; simp at this
  | cons a as =>
    rw [hl] at this
    simp only [List.map_cons, List.map_nil, List.cons.injEq, List.map_eq_nil_iff] at this
    obtain ⟨h1, rfl⟩ := this
    cases a <;> simp_all [noMask]

theorem SoftLs.of_kin {first : Bool} {ls ls' : List (Layer ℝ)} (h : SoftLs first ls) (hk : List.Forall₂ Layer.Kin ls ls') : SoftLs first ls' := by
  induction h generalizing ls' with
  | last ho h =>
    cases hk with
    | cons k1 k2 => cases k2; exact .last (soft_kin ho k1) (h.of_kin (bare_kin k1))
  | cons h hs ih =>
    cases hk with
    | cons k1 k2 => exact .cons (h.of_kin k1) (ih k2)

theorem bareLast_ne {ls : List (Layer ℝ)} (h : ls ≠ []) : bareLast ls ≠ [] := by
  cases ls with
  | nil => exact absurd rfl h
  | cons a ls => cases ls <;> simp [bareLast]

theorem bareLast_get : ∀ (ls : List (Layer ℝ)) (j : Nat), (bareLast ls)[j]? = ls[j]? ∨ (bareLast ls)[j]? = ls[j]?.map bare
  | [], j => by simp [bareLast]
  | [l], 0 => by simp [bareLast]
  | [l], j + 1 => by simp [bareLast]
  | l :: l' :: ls, 0 => by simp [bareLast]
  | l :: l' :: ls, j + 1 => by simpa [bareLast] using bareLast_get (l' :: ls) j

theorem bareLast_hasW {ls : List (Layer ℝ)} {j k i : Nat} : HasW (bareLast ls) j k i ↔ HasW ls j k i := by
  unfold HasW
  rcases bareLast_get ls j with h | h
  · rw [h]
  · rw [h]
    cases ls[j]? with
    | none => simp
    | some l => simp only [Option.map_some, Option.some.injEq]; constructor <;> rintro ⟨_, rfl, h⟩ <;> exact ⟨_, rfl, h⟩

theorem bareLast_vals (ls : List (Layer ℝ)) (j k i : Nat) :
    wt (bareLast ls) j k i = wt ls j k i ∧ mm (bareLast ls) j k i = mm ls j k i ∧ kp (bareLast ls) j k i = kp ls j k i := by
  unfold wt mm kp
  rcases bareLast_get ls j with h | h
  · rw [h]; exact ⟨rfl, rfl, rfl⟩
  · rw [h]
    cases ls[j]? with
    | none => exact ⟨rfl, rfl, rfl⟩
    | some l => exact ⟨rfl, rfl, rfl⟩

theorem bare_withWeight (l : Layer ℝ) (k i : Nat) (v : ℝ) : bare (Layer.withWeight l k i v) = Layer.withWeight (bare l) k i v := by
  obtain ⟨a, b, body⟩ := l
  cases body <;> rfl

theorem bareLast_modify (k i : Nat) (v : ℝ) : ∀ (ls : List (Layer ℝ)) (j : Nat),
    bareLast (ls.modify j fun l => Layer.withWeight l k i v) = (bareLast ls).modify j fun l => Layer.withWeight l k i v
  | [], j => by simp [bareLast]
  | [l], 0 => by simp [bareLast, bare_withWeight]
  | [l], j + 1 => by simp [bareLast]
  | l :: l' :: ls, 0 => by simp [bareLast]
  | l :: l' :: ls, j + 1 => by
    have := bareLast_modify k i v (l' :: ls) j
    rw [List.modify_succ_cons]
    cases j with
    | zero => simp only [List.modify_zero_cons, bareLast, List.modify_succ_cons] at this ⊢; rw [this]
    | succ j => simp only [bareLast, List.modify_succ_cons] at this ⊢; rw [this]

theorem endsSoft_modify {ls : List (Layer ℝ)} (h : EndsSoft ls) (k i : Nat) (v : ℝ) (j : Nat) :
    EndsSoft (ls.modify j fun l => Layer.withWeight l k i v) := by
  have hopt : ∀ l : Layer ℝ, (Layer.withWeight l k i v).optimizers = l.optimizers := by
    intro l; unfold Layer.withWeight; cases l.body <;> rfl
  obtain ⟨f, l, rfl, hl⟩ := h
  induction f generalizing j with
  | nil =>
    cases j with
    | zero => exact ⟨[], Layer.withWeight l k i v, by simp, by rw [hopt, hl]⟩
    | succ j => exact ⟨[], l, by simp, hl⟩
  | cons a f ih =>
    cases j with
    | zero => exact ⟨Layer.withWeight a k i v :: f, l, by simp, hl⟩
    | succ j =>
      obtain ⟨f', l', e, h'⟩ := ih j
      exact ⟨a :: f', l', by simp [e], h'⟩

theorem bareLast_wf {ls : List (Layer ℝ)} {ni no : Nat} (h : LayersWF ls ni no) : LayersWF (bareLast ls) ni no := by
  induction h with
  | nil => exact .nil
  | @cons l ls a b c hl hs ih =>
    cases ls with
    | nil => cases hs; exact .cons ⟨hl.inputs, hl.body, hl.pos⟩ .nil
    | cons l' ls => exact .cons hl ih

theorem bareLast_mem {P : Layer ℝ → Prop} (hP : ∀ l, P l → P (bare l)) : ∀ {ls : List (Layer ℝ)}, (∀ l ∈ ls, P l) → ∀ l ∈ bareLast ls, P l
  | [], h => by simp [bareLast]
  | [l], h => by simp only [bareLast, List.mem_singleton]; rintro _ rfl; exact hP _ (h l (by simp))
  | l :: l' :: ls, h => by
    intro q hq
    rcases List.mem_cons.1 hq with rfl | hq
    · exact h _ (by simp)
    · exact bareLast_mem hP (fun q hq => h q (by simp_all)) q hq

/-! ### The loops -/

theorem bare_output {l : Layer ℝ} (ho : l.optimizers = [.softmax]) {x z : List ℝ} {t : Bool} {l0 : Layer ℝ} (hz : z ≠ [])
    (h : (bare l).output x t = .ok (z, l0)) : ∃ l', l.output x t = .ok (softmax z, l') := by
  unfold Layer.output at h ⊢
  obtain ⟨⟨out, body⟩, h1, h⟩ := Res.bind_eq_ok.1 h
  obtain ⟨out', h2, h⟩ := Res.bind_eq_ok.1 h
  cases h
  cases h2
  change l.body.computeOutput x t = _ at h1
  rw [h1, ho]
  simp only [Res.ok_bind, testingHooks, LayerOpt.afterOutputForTesting, C45_softmax_value hz]
  exact ⟨_, rfl⟩

theorem bare_training {l : Layer ℝ} (ho : l.optimizers = [.softmax]) {x z : List ℝ} {t : Bool} {l0 : Layer ℝ} {d d' : Draws ℝ} (hz : z ≠ [])
    (h : (bare l).outputForTraining x t d = .ok (z, l0, d')) :
    ∃ l', l.outputForTraining x t d = .ok (softmax z, l', d') ∧ bare l' = l0 ∧ l'.optimizers = [.softmax] := by
  unfold Layer.outputForTraining at h ⊢
  obtain ⟨⟨out, body⟩, h1, h⟩ := Res.bind_eq_ok.1 h
  obtain ⟨⟨out', os, d1⟩, h2, h⟩ := Res.bind_eq_ok.1 h
  cases h
  cases h2
  change l.body.computeOutput x t = _ at h1
  rw [h1, ho]
  simp only [Res.ok_bind, trainingHooks, LayerOpt.afterOutputForTraining, C45_softmax_value hz]
  exact ⟨_, rfl, rfl, rfl⟩

theorem bare_backOutput {l : Layer ℝ} (ho : l.optimizers = [.softmax]) {es es' : List ℝ} {l0 : Layer ℝ} (h : (bare l).backOutput es = .ok (es', l0)) :
    ∃ l', l.backOutput es = .ok (es', l') ∧ bare l' = l0 := by
  unfold Layer.backOutput at h ⊢
  simp only [Res.bind_eq_ok, Prod.exists] at h
  obtain ⟨r, body, h1, h⟩ := h
  cases h
  change l.body.computeBackOutput l.numberOfInputs es = _ at h1
  rw [ho]
  simp only [backHooks, List.foldl_cons, List.foldl_nil, LayerOpt.beforeBackpropagation, h1, Res.ok_bind]
  exact ⟨_, rfl, rfl⟩

theorem bare_train {l : Layer ℝ} (ho : l.optimizers = [.softmax]) {es : List ℝ} {l0 : Layer ℝ} (h : (bare l).train es = .ok l0) :
    ∃ l', l.train es = .ok l' ∧ bare l' = l0 := by
  unfold Layer.train at h ⊢
  simp only [Res.bind_eq_ok] at h
  obtain ⟨body, h1, h⟩ := h
  cases h
  change l.body.computeTrain es = _ at h1
  rw [ho]
  simp only [backHooks, List.foldl_cons, List.foldl_nil, LayerOpt.beforeBackpropagation, h1, Res.ok_bind]
  exact ⟨_, rfl, rfl⟩

theorem soft_outputLoop {t : Bool} {l : Layer ℝ} (ho : l.optimizers = [.softmax]) : ∀ {f : List (Layer ℝ)} {x z : List ℝ} {ls0 : List (Layer ℝ)},
    z ≠ [] → outputLoop t (f ++ [bare l]) x = .ok (z, ls0) → ∃ ls', outputLoop t (f ++ [l]) x = .ok (softmax z, ls')
  | [], x, z, ls0, hz, h => by
    simp only [List.nil_append, outputLoop, Res.bind_eq_ok, Prod.exists] at h
    obtain ⟨y, l0, h1, w, ls1, h2, h⟩ := h
    cases h2
    cases h
    obtain ⟨l', h3⟩ := bare_output ho hz h1
    exact ⟨[l'], by simp [outputLoop, h3]⟩
  | a :: f, x, z, ls0, hz, h => by
    simp only [List.cons_append, outputLoop, Res.bind_eq_ok, Prod.exists] at h
    obtain ⟨y, l0, h1, w, ls1, h2, h⟩ := h
    cases h
    obtain ⟨ls', h3⟩ := soft_outputLoop ho hz h2
    exact ⟨l0 :: ls', by simp [outputLoop, h1, h3]⟩

theorem soft_trainingLoop {t : Bool} {l : Layer ℝ} (ho : l.optimizers = [.softmax]) : ∀ {f : List (Layer ℝ)} {x z : List ℝ} {ls0 : List (Layer ℝ)}
    {d d' : Draws ℝ}, z ≠ [] → trainingLoop t (f ++ [bare l]) x d = .ok (z, ls0, d') →
    ∃ f' l', trainingLoop t (f ++ [l]) x d = .ok (softmax z, f' ++ [l'], d') ∧ ls0 = f' ++ [bare l'] ∧ l'.optimizers = [.softmax]
  | [], x, z, ls0, d, d', hz, h => by
    simp only [List.nil_append, trainingLoop, Res.bind_eq_ok, Prod.exists] at h
    obtain ⟨y, l0, d1, h1, w, ls1, d2, h2, h⟩ := h
    cases h2
    cases h
    obtain ⟨l', h3, h4, h5⟩ := bare_training ho hz h1
    exact ⟨[], l', by simp [trainingLoop, h3], by simp [h4], h5⟩
  | a :: f, x, z, ls0, d, d', hz, h => by
    simp only [List.cons_append, trainingLoop, Res.bind_eq_ok, Prod.exists] at h
    obtain ⟨y, l0, d1, h1, w, ls1, d2, h2, h⟩ := h
    cases h
    obtain ⟨f', l', h3, rfl, h5⟩ := soft_trainingLoop ho hz h2
    exact ⟨l0 :: f', l', by simp [trainingLoop, h1, h3], by simp, h5⟩

theorem soft_backLoop {l : Layer ℝ} (ho : l.optimizers = [.softmax]) : ∀ {f : List (Layer ℝ)} {es es' : List ℝ} {ls0 : List (Layer ℝ)},
    backLoop (f ++ [bare l]) es = .ok (es', ls0) → ∃ ls', backLoop (f ++ [l]) es = .ok (es', ls') ∧ bareLast ls' = ls0 ∧ ls' ≠ []
  | [], es, es', ls0, h => by
    simp only [List.nil_append, backLoop, Res.bind_eq_ok, Prod.exists] at h
    obtain ⟨w, ls1, h2, y, l0, h1, h⟩ := h
    cases h2
    cases h
    obtain ⟨l', h3, h4⟩ := bare_backOutput ho h1
    exact ⟨[l'], by simp [backLoop, h3], by simp [bareLast, h4], by simp⟩
  | a :: f, es, es', ls0, h => by
    simp only [List.cons_append, backLoop, Res.bind_eq_ok, Prod.exists] at h
    obtain ⟨w, ls1, h2, y, l0, h1, h⟩ := h
    cases h
    obtain ⟨ls', h3, h4, h5⟩ := soft_backLoop ho h2
    refine ⟨l0 :: ls', by simp [backLoop, h1, h3], ?_, by simp⟩
    cases ls' with
    | nil => exact absurd rfl h5
    | cons b ls' => simp only [bareLast]; rw [h4]

theorem soft_backwardPass {l : Layer ℝ} (ho : l.optimizers = [.softmax]) {f : List (Layer ℝ)} {es : List ℝ} {ls0 : List (Layer ℝ)}
    (h : backwardPass (f ++ [bare l]) es = .ok ls0) : ∃ ls', backwardPass (f ++ [l]) es = .ok ls' ∧ bareLast ls' = ls0 := by
  cases f with
  | nil =>
    simp only [List.nil_append, backwardPass, backLoop, Res.bind_eq_ok, Prod.exists] at h
    obtain ⟨w, ls1, h2, l0, h1, h⟩ := h
    cases h2
    cases h
    obtain ⟨l', h3, h4⟩ := bare_train ho h1
    exact ⟨[l'], by simp [backwardPass, backLoop, h3], by simp [bareLast, h4]⟩
  | cons a f =>
    simp only [List.cons_append, backwardPass, Res.bind_eq_ok, Prod.exists] at h
    obtain ⟨w, ls1, h2, l0, h1, h⟩ := h
    cases h
    obtain ⟨ls', h3, h4, h5⟩ := soft_backLoop ho h2
    refine ⟨l0 :: ls', by simp [backwardPass, h1, h3], ?_⟩
    cases ls' with
    | nil => exact absurd rfl h5
    | cons b ls' => simp only [bareLast]; rw [h4]

theorem bareLast_noKinks {ls : List (Layer ℝ)} {x : List ℝ} {ni no : Nat} (hw : LayersWF ls ni no) (hx : x.length = ni) (h : NoKinks ls x) :
    NoKinks (bareLast ls) x := by
  induction h generalizing ni with
  | nil => exact .nil
  | @cons l l' ls x y h ho hs ih =>
    cases hw with
    | cons hl hws =>
      obtain ⟨y', l'', e1, e2, _⟩ := Layer.output_ok hl x hx false
      rw [ho] at e1
      cases e1
      cases ls with
      | nil =>
        obtain ⟨y', l2, e3, _⟩ := Layer.output_ok (l := bare l) ⟨hl.inputs, hl.body, hl.pos⟩ x hx false
        exact .cons h e3 .nil
      | cons b ls => exact .cons h ho (ih hws e2)

/-! ### Cross-entropy -/

theorem getD_softmax (z : List ℝ) (j : Nat) (hj : j < z.length) : (softmax z).getD j 0 = Real.exp (z.getD j 0) / (z.map Real.exp).sum := by
  simp [softmax, List.getD_eq_getElem?_getD, hj]

theorem sum_exp (z : List ℝ) : (z.map Real.exp).sum = ∑ j ∈ range z.length, Real.exp (z.getD j 0) := by
  induction z with
  | nil => simp
  | cons a z ih => rw [List.map_cons, List.sum_cons, ih, List.length_cons, Finset.sum_range_succ']; simp [add_comm]

theorem sum_exp_pos {z : List ℝ} (h : z ≠ []) : 0 < ∑ j ∈ range z.length, Real.exp (z.getD j 0) := by
  apply Finset.sum_pos
  · intro i _; exact Real.exp_pos _
  · cases z with
    | nil => exact absurd rfl h
    | cons => simp

theorem crossEntropy_softmax {d z : List ℝ} (h : z.length = d.length) (hz : z ≠ []) :
    crossEntropy d (softmax z) = (∑ j ∈ range d.length, d.getD j 0) * Real.log (∑ j ∈ range d.length, Real.exp (z.getD j 0))
      - ∑ j ∈ range d.length, d.getD j 0 * z.getD j 0 := by
  have hp := sum_exp_pos hz
  rw [h] at hp
  unfold crossEntropy
  rw [Finset.sum_congr rfl (g := fun j => d.getD j 0 * z.getD j 0 - d.getD j 0 * Real.log (∑ j ∈ range d.length, Real.exp (z.getD j 0)))]
  · rw [Finset.sum_sub_distrib, ← Finset.sum_mul]; ring
  · intro j hj
    have hj' : j < z.length := by rw [h]; simpa using hj
    rw [getD_softmax z j hj', sum_exp, h, Real.log_div (Real.exp_pos _).ne' hp.ne', Real.log_exp]
    ring

theorem list_sum_range (d : List ℝ) : d.sum = ∑ j ∈ range d.length, d.getD j 0 := by
  induction d with
  | nil => simp
  | cons a z ih => rw [List.sum_cons, ih, List.length_cons, Finset.sum_range_succ']; simp [add_comm]

/-- Twice the cross-entropy after softmax: minus its gradient is twice the difference of the probabilities. -/
theorem back_crossEntropy (d z : List ℝ) (h : z.length = d.length) (hz : z ≠ []) (hd : d.sum = 1) :
    Back (List.zipWith (fun d o => 2 * (d - o)) d (softmax z)) z (fun z => 2 * crossEntropy d (softmax z)) := by
  intro c v t0 hc hv hm
  have hne : ∀ t, c t ≠ [] := by
    intro t hn
    have := hm.length t
    rw [hn, hv] at this
    exact hz (List.length_eq_zero_iff.1 this.symm)
  have hlen : ∀ t, (c t).length = d.length := fun t => by rw [hm.length t, hv, h]
  have e : (fun t => 2 * crossEntropy d (softmax (c t))) = fun t => 2 * (1 * Real.log (∑ j ∈ range d.length, Real.exp ((c t).getD j 0))
      - ∑ j ∈ range d.length, d.getD j 0 * (c t).getD j 0) := by
    funext t
    rw [crossEntropy_softmax (hlen t) (hne t), ← list_sum_range, hd]
  rw [e]
  have hp := sum_exp_pos hz
  rw [h] at hp
  have h1 : HasDerivAt (fun t => ∑ j ∈ range d.length, Real.exp ((c t).getD j 0)) (∑ j ∈ range d.length, Real.exp (z.getD j 0) * v.getD j 0) t0 := by
    apply HasDerivAt.fun_sum
    intro j _
    have := (hm.deriv j).exp
    rw [hc] at this
    exact this
  have h2 : HasDerivAt (fun t => ∑ j ∈ range d.length, d.getD j 0 * (c t).getD j 0) (∑ j ∈ range d.length, d.getD j 0 * v.getD j 0) t0 := by
    apply HasDerivAt.fun_sum
    intro j _
    exact (hm.deriv j).const_mul _
  have h3 := h1.log (by rw [hc]; exact hp.ne')
  have h4 := (((h3.const_mul 1).sub h2).const_mul 2)
  refine h4.congr_deriv ?_
  rw [hc, dot_eq_sum _ _ d.length (by omega), ← Finset.sum_neg_distrib, one_mul, Finset.sum_div, ← Finset.sum_sub_distrib, Finset.mul_sum]
  apply Finset.sum_congr rfl
  intro j hj
  have hj' : j < d.length := by simpa using hj
  have hjz : j < z.length := by omega
  have hjs : j < (softmax z).length := by simp [softmax, hjz]
  have e2 : (List.zipWith (fun d o => 2 * (d - o)) d (softmax z)).getD j 0 = 2 * (d.getD j 0 - (softmax z).getD j 0) := by
    simp [List.getD_eq_getElem?_getD, List.getElem?_zipWith, hj', hjs]
  rw [e2, getD_softmax z j hjz, sum_exp, h]
  ring

theorem crossLoss_eq {n : Net ℝ} {ni no : Nat} (h : LayersWF n.layers ni no) (he : EndsSoft n.layers) {x : List ℝ} (hx : x.length = ni)
    (hno : 0 < no) (d : List ℝ) : crossLoss n x d = crossEntropy d (softmax (fnAll (bareLast n.layers) x)) := by
  obtain ⟨z, ls', h1, h2, _⟩ := outputLoop_ok false (bareLast_wf h) x hx
  have hz : z ≠ [] := by rintro rfl; simp at h2; omega
  obtain ⟨f, l, e, ho⟩ := he
  have h3 := h1
  rw [e, bareLast_append] at h3
  obtain ⟨ls2, h4⟩ := soft_outputLoop ho hz h3
  have hy := outputLoop_fnAll h1
  have hne : n.layers.isEmpty = false := by rw [e]; simp
  unfold crossLoss Net.output
  rw [hne]
  simp only [Bool.false_eq_true, if_false]
  rw [e, h4, ← e]
  simp only [Res.ok_bind, hy]
  rfl

/-- One call of `trainOnce`. -/
theorem trainOnce_cross {n : Net ℝ} {ni no : Nat} {o : Sgd ℝ} (hw : n.WF ni no) (hno0 : 0 < no) (hnan : n.outputNan = false) {x des : List ℝ}
    (he : EndsSoft n.layers) (hs : Smooth o true (bareLast n.layers) x ni no) (hx : x.length = ni) (hd : des.length = no) (hsum : des.sum = 1) (t : Bool) (d : Draws ℝ) :
    ∃ n', n.trainOnce x des t d = .ok (n', d) ∧ n'.outputNan = false ∧ ∀ j k i, HasW n.layers j k i →
      (∃ g, HasDerivAt (fun v => 2 * crossLoss (Net.withWeight n j k i v) x des) g (Net.weight n j k i) ∧
        Net.weight n' j k i = kp n.layers j k i - o.learningRate * g + o.momentum * mm n.layers j k i) ∧
      mm n'.layers j k i = Net.weight n' j k i - kp n.layers j k i := by
  obtain ⟨ls1, h1, h2⟩ := pass_run hs (bareLast_ne hw.ne) t d
  obtain ⟨y, ls1', d1, g1, g2, g3, g4⟩ := trainingLoop_ok t (bareLast_wf hw.layers) x d hx
  rw [h1] at g1
  cases g1
  have hlen : (fnAll (bareLast n.layers) x).length = no := g2
  have hz : fnAll (bareLast n.layers) x ≠ [] := by intro hc; rw [hc] at hlen; simp at hlen; omega
  have hslen : (softmax (fnAll (bareLast n.layers) x)).length = no := by simp [softmax, hlen]
  obtain ⟨ls2, h3, h4⟩ := h2 (List.zipWith (fun d o => 2 * (d - o)) des (softmax (fnAll (bareLast n.layers) x))) (by simp [hd, hslen])
  obtain ⟨f, l, e, ho⟩ := he
  have h1' := h1
  rw [e, bareLast_append] at h1'
  rw [← bareLast_append, ← e] at h1'
  have h1'' := h1
  conv at h1'' => lhs; rw [e, bareLast_append]
  obtain ⟨f', l', k1, k2, k3⟩ := soft_trainingLoop ho hz h1''
  rw [← e] at k1
  subst k2
  obtain ⟨ls3, k4, k5⟩ := soft_backwardPass k3 h3
  have hemp : n.layers.isEmpty = false := by rw [e]; simp
  obtain ⟨y', lsq, dq, q1, q2, q3, q4⟩ := trainingLoop_ok t hw.layers x d hx
  rw [k1] at q1
  cases q1
  obtain ⟨l3, k, hl1, hl2⟩ := q3.getLast (q4.ne hw.ne)
  have hno : l3.getNumberOfNeurons = no := hl2.neurons (q4.last hw.last l3 hl1)
  have hrun : n.trainOnce x des t d = .ok ({ n with layers := ls3, outputNan := false, numberOfTraining := n.numberOfTraining + 1 }, d) := by
    unfold Net.trainOnce Net.backpropagation Net.outputForTraining
    rw [hemp]
    simp only [Bool.false_eq_true, if_false, k1, Res.ok_bind, Res.pure_eq, hnan, hasBadValue_real, Bool.or_false, Net.calculateError]
    rw [backOf_eq hl1]
    simp only [Res.ok_bind]
    rw [hno, errorsLoop_value no des _ hd hslen]
    simp only [Res.ok_bind, k4]
  refine ⟨_, hrun, rfl, ?_⟩
  intro j k i hh
  have hG := back_crossEntropy des (fnAll (bareLast n.layers) x) (by omega) hz hsum
  obtain ⟨⟨g, e1, e2⟩, e3⟩ := h4 _ hG j k i (bareLast_hasW.2 hh)
  rw [← k5] at e2 e3
  rw [(bareLast_vals _ j k i).1, (bareLast_vals _ j k i).2.1, (bareLast_vals _ j k i).2.2] at e2
  rw [(bareLast_vals _ j k i).1, (bareLast_vals _ j k i).2.1, (bareLast_vals _ j k i).2.2] at e3
  rw [(bareLast_vals _ j k i).1] at e1
  refine ⟨⟨g, ?_, e2⟩, e3⟩
  have hfun : (fun v => 2 * crossLoss (Net.withWeight n j k i v) x des)
      = fun v => 2 * crossEntropy des (softmax (fnAll ((bareLast n.layers).modify j fun l => Layer.withWeight l k i v) x)) := by
    funext v
    rw [crossLoss_eq (n := Net.withWeight n j k i v) (layers_withWeight_wf hw.layers k i v j) (endsSoft_modify ⟨f, l, e, ho⟩ k i v j) hx hno0 des]
    rw [← bareLast_modify]
    rfl
  rw [hfun]
  exact e1

/-! ### The constructor -/

theorem buildLayer_soft {o : Sgd ℝ} {first : Bool} {n : Int} {act : Act} {s : List Nat} (ha : act ≠ .iSigmoid) (hs : GoodShape s)
    {d d' : Draws ℝ} {l : Layer ℝ} (h : buildLayer o (.fullyConnected n act [.softmax]) (s.map fun v : Nat => (v : Int)) d = .ok (l, d')) :
    l.optimizers = [.softmax] ∧ PlainL first (bare l) ∧ Fresh l := by
  rw [buildLayer_start hs] at h
  simp only at h
  unfold buildSimple at h
  obtain ⟨nw, _, h⟩ := Res.bind_eq_ok.1 h
  simp only at h
  obtain ⟨⟨ns, d1⟩, h1, h⟩ := Res.bind_eq_ok.1 h
  cases h
  have := (makeAllNeurons_inv (fun _ _ h => make_mem h) h1).2
  exact ⟨rfl, ⟨rfl, fun n hn => by rw [(this n hn).1]; exact ha⟩, fresh_of fun n hn => (this n hn).2⟩

theorem buildLayers_soft {o : Sgd ℝ} {ms : List (LayerModel ℝ)} {s s' : List Nat} (hc : Chain ms s s') : ∀ {first : Bool} (hp : SoftChain first ms s)
    {d d' : Draws ℝ} {ls : List (Layer ℝ)}, buildLayers o ms (s.map fun v : Nat => (v : Int)) d = .ok (ls, d') → SoftLs first ls ∧ ∀ l ∈ ls, Fresh l := by
  induction hc with
  | nil =>
    intro first hp d d' ls h
    cases hp
  | @cons m ms s s1 s2 hs hm hc ih =>
    intro first hp d d' ls h
    have hs1 : GoodShape s1 := by cases hc <;> assumption
    rw [buildLayers] at h
    obtain ⟨⟨l, d1⟩, h1, h⟩ := Res.bind_eq_ok.1 h
    simp only at h
    obtain ⟨l', d1', e, hb⟩ := buildLayer_ok o hm hs hs1 d
    rw [h1] at e
    cases e
    obtain ⟨⟨ls', d2⟩, h2, h⟩ := Res.bind_eq_ok.1 h
    cases h
    cases hp with
    | last ha =>
      cases h2
      obtain ⟨a, b, c⟩ := buildLayer_soft (first := first) ha hs h1
      exact ⟨.last a b, by simpa using c⟩
    | @cons _ _ _ _ s1' hp hf' hps =>
      obtain rfl := fits_fun hf' hm
      rw [hb.shape] at h2
      have a := buildLayer_plain hs hm hp h1
      have b := ih hps h2
      refine ⟨.cons a.1 b.1, ?_⟩
      intro q hq
      rcases List.mem_cons.1 hq with rfl | hq
      · exact a.2
      · exact b.2 q hq

end Snn.Grad
