import Verif.Spec.LinearSpec
import Verif.Props.RangeProps
import Verif.Props.NeuronProps
import Verif.Props.AccuracyProps
import Verif.Props.FadeProps

/-! The answers of a network of linear layers are affine forms of its inputs. -/

set_option linter.all false

namespace Snn

open Spec Finset HistoryProps

theorem Neuron.output_affine {n n' : Neuron ℝ} {x : List ℝ} {o : ℝ} (hl : n.weights.length = x.length + 1) (h : n.output x = .ok (o, n')) :
    o = n.activationFunction.obj.function (affine n.weights x n.bias) := by
  unfold Neuron.output at h
  obtain ⟨_, _, h⟩ := Res.bind_eq_ok.1 h
  obtain ⟨t, h1, h⟩ := Res.bind_eq_ok.1 h
  obtain ⟨wb, h2, h⟩ := Res.bind_eq_ok.1 h
  simp only [Act.apply_ok, Res.ok_bind] at h
  cases h
  rw [dotLoop_ok _ _ _ (by omega)] at h1
  cases h1
  have hw : n.weights[x.length]? = some wb := by
    have := rd_eq_ok.1 h2
    simpa using this
  rw [NeuronSpec.affine_eq (by omega) hw]

theorem runNeurons_val {N : Type} {f : N → Res (ℝ × N)} {g : N → ℝ} : ∀ {ns ns' : List N} {os : List ℝ},
    (∀ n ∈ ns, ∀ o n', f n = .ok (o, n') → o = g n) → runNeurons f ns = .ok (os, ns') → os = ns.map g
  | [], ns', os, _, h => by cases h; rfl
  | n :: ns, ns', os, hg, h => by
    unfold runNeurons at h
    obtain ⟨⟨o, n1⟩, h1, h⟩ := Res.bind_eq_ok.1 h
    obtain ⟨⟨os1, ns1⟩, h2, h⟩ := Res.bind_eq_ok.1 h
    cases h
    rw [List.map_cons, hg n (by simp) o n1 h1, runNeurons_val (fun m hm => hg m (by simp [hm])) h2]

theorem dense_val {opt : Sgd ℝ} {n : Int} {act : Act} {opts : List (LayerOptModel ℝ)} {s : List Nat} {l : Layer ℝ}
    (h : LayerIs opt (.fullyConnected n act opts) s l) : ∃ ns : List (Neuron ℝ), (ns.length : Int) = n ∧
      ∀ {x raw : List ℝ} {t : Bool} {b' : Body ℝ}, x.length = s.prod → l.body.computeOutput x t = .ok (raw, b') →
        raw = ns.map fun m => act.obj.function (affine m.weights x 1) := by
  obtain ⟨_, _, ns, hb, hn, hi⟩ := h
  refine ⟨ns, hn, ?_⟩
  intro x raw t b' hx hc
  rw [hb] at hc
  simp only [Body.computeOutput] at hc
  obtain ⟨⟨os, ns'⟩, h1, hc⟩ := Res.bind_eq_ok.1 hc
  cases hc
  refine runNeurons_val ?_ h1
  intro m hm o m' ho
  have := hi m hm
  rw [Neuron.output_affine (by rw [this.weights, hx]) ho, this.activation, this.bias]
  simp

theorem hooks_scale : ∀ (opts : List (LayerOpt ℝ)), (∀ o ∈ opts, settingOf o ≠ .softmax) → ∃ c : ℝ, ∀ {x y : List ℝ}, testingHooks opts x = .ok y → y = x.map (· * c)
  | [], _ => ⟨1, by intro x y h; cases h; simp⟩
  | o :: os, ho => by
    obtain ⟨c, hc⟩ := hooks_scale os (fun o h => ho o (by simp [h]))
    have h0 := ho o (by simp)
    cases o with
    | softmax => exact absurd rfl h0
    | dropout v rv m =>
      refine ⟨rv * c, ?_⟩
      intro x y h
      unfold testingHooks at h
      obtain ⟨z, h1, h⟩ := Res.bind_eq_ok.1 h
      simp only [LayerOpt.afterOutputForTesting] at h1
      cases h1
      rw [hc h, List.map_map]
      apply List.map_congr_left
      intro a _
      simp [mul_assoc]
    | l1 v => exact ⟨c, fun h => by unfold testingHooks at h; obtain ⟨z, h1, h⟩ := Res.bind_eq_ok.1 h; cases h1; exact hc h⟩
    | l2 v => exact ⟨c, fun h => by unfold testingHooks at h; obtain ⟨z, h1, h⟩ := Res.bind_eq_ok.1 h; cases h1; exact hc h⟩
    | errorMultiplier v => exact ⟨c, fun h => by unfold testingHooks at h; obtain ⟨z, h1, h⟩ := Res.bind_eq_ok.1 h; cases h1; exact hc h⟩

theorem hooks_silent : ∀ {opts : List (LayerOpt ℝ)} {x y : List ℝ}, (∀ o ∈ opts, TrainingOnly (settingOf o)) → testingHooks opts x = .ok y → y = x
  | [], x, y, _, h => by cases h; rfl
  | o :: os, x, y, ho, h => by
    have h0 := ho o (by simp)
    unfold testingHooks at h
    obtain ⟨z, h1, h⟩ := Res.bind_eq_ok.1 h
    have := hooks_silent (fun o h => ho o (by simp [h])) h
    cases o <;> simp only [settingOf, TrainingOnly] at h0 <;> (cases h1; exact this)

/-- f is an affine form on vectors of size n. -/
def IsForm (n : Nat) (f : List ℝ → ℝ) : Prop := ∃ w c, ∀ x : List ℝ, x.length = n → f x = form w c x

theorem IsForm.coord {n i : Nat} (hi : i < n) : IsForm n (fun x => x.getD i 0) := by
  refine ⟨fun j => if j = i then 1 else 0, 0, ?_⟩
  intro x hx
  simp [form, hx, hi]

theorem IsForm.const {n : Nat} (c : ℝ) : IsForm n (fun _ => c) := ⟨fun _ => 0, c, by intro x _; simp [form]⟩

theorem IsForm.add {n : Nat} {f g : List ℝ → ℝ} (hf : IsForm n f) (hg : IsForm n g) : IsForm n (fun x => f x + g x) := by
  obtain ⟨w, c, hf⟩ := hf
  obtain ⟨v, d, hg⟩ := hg
  refine ⟨fun i => w i + v i, c + d, ?_⟩
  intro x hx
  show f x + g x = _
  rw [hf x hx, hg x hx]
  simp only [form, add_mul, sum_add_distrib]
  ring

theorem IsForm.smul {n : Nat} {f : List ℝ → ℝ} (a : ℝ) (hf : IsForm n f) : IsForm n (fun x => a * f x) := by
  obtain ⟨w, c, hf⟩ := hf
  refine ⟨fun i => a * w i, a * c, ?_⟩
  intro x hx
  show a * f x = _
  rw [hf x hx]
  simp only [form, mul_add, mul_sum, mul_assoc]

theorem IsForm.sum {n : Nat} {f : Nat → List ℝ → ℝ} : ∀ k : Nat, (∀ i < k, IsForm n (f i)) → IsForm n (fun x => ∑ i ∈ range k, f i x)
  | 0, _ => by simpa using IsForm.const 0
  | k + 1, h => by
    simp only [sum_range_succ]
    exact (IsForm.sum k fun i hi => h i (by omega)).add (h k (by omega))

theorem form_comp {n : Nat} {fs : List (List ℝ → ℝ)} (hf : ∀ f ∈ fs, IsForm n f) (w : List ℝ) : IsForm n (fun x => affine w (fs.map fun f => f x) 1) := by
  unfold affine
  simp only [List.length_map, mul_one]
  refine IsForm.add ?_ (.const _)
  refine IsForm.sum _ ?_
  intro i hi
  refine IsForm.smul _ ?_
  have : (fun x : List ℝ => (fs.map fun f => f x).getD i 0) = fs[i] := by
    funext x
    simp [List.getD_eq_getElem?_getD, hi]
  rw [this]
  exact hf _ (List.getElem_mem hi)

/-- The first hidden layers. -/
theorem loop_forms {opt : Sgd ℝ} {n0 : Nat} {ms : List (LayerModel ℝ)} (hm : ∀ m ∈ ms, LinearHidden m) : ∀ {m : LayerModel ℝ} {sh : List Nat} {ls : List (Layer ℝ)}
    {fs : List (List ℝ → ℝ)}, NetIs opt (ms ++ [m]) sh ls → fs.length = sh.prod → (∀ f ∈ fs, IsForm n0 f) →
    ∃ (ls1 : List (Layer ℝ)) (l : Layer ℝ) (sh1 sh2 : List Nat) (gs : List (List ℝ → ℝ)), ls = ls1 ++ [l] ∧ LayerIs opt m sh1 l ∧ Fits m sh1 sh2 ∧ gs.length = sh1.prod ∧ (∀ g ∈ gs, IsForm n0 g) ∧
      ∀ {x z : List ℝ} {t : Bool} {ks : List (Layer ℝ)}, outputLoop t ls1 (fs.map fun f => f x) = .ok (z, ks) → z = gs.map fun g => g x := by
  induction ms with
  | nil =>
    intro m sh ls fs h hl hf
    cases h with
    | cons hm hl' ho hs => cases hs; exact ⟨[], _, sh, _, fs, rfl, hl', hm, hl, hf, by intro x z t ks h; cases h; rfl⟩
  | cons m1 ms ih =>
    intro m sh ls fs h hlen hf
    rw [List.cons_append] at h
    cases h with
    | @cons _ _ _ s1 l1 ls hfit hl ho hs =>
      obtain @⟨n, opts, hno⟩ := hm m1 (by simp)
      have hfit' := hfit
      obtain ⟨ns, hn, hv⟩ := dense_val hl
      have hopts : l1.optimizers.map settingOf = opts := hl.2.1
      obtain ⟨c, hc⟩ := hooks_scale l1.optimizers (fun o hm he => hno (hopts ▸ he ▸ List.mem_map.2 ⟨o, hm, rfl⟩))
      have h1 : s1.prod = ns.length := by
        cases hfit with
        | fullyConnected h => simp at hn ⊢; omega
      obtain ⟨ls1, l, sh1, sh2, gs, rfl, a1, a2, a3, a4, a5⟩ := ih (fun m h => hm m (by simp [h]))
        (fs := ns.map fun k x => c * affine k.weights (fs.map fun f => f x) 1) hs (by simp [h1])
        (by
          intro f hf'
          obtain ⟨k, _, rfl⟩ := List.mem_map.1 hf'
          exact IsForm.smul c (form_comp hf k.weights))
      refine ⟨l1 :: ls1, l, sh1, sh2, gs, rfl, a1, a2, a3, a4, ?_⟩
      intro x z t ks h
      unfold outputLoop at h
      obtain ⟨⟨y1, l1'⟩, e1, h⟩ := Res.bind_eq_ok.1 h
      obtain ⟨⟨y2, ls'⟩, e2, h⟩ := Res.bind_eq_ok.1 h
      cases h
      unfold Layer.output at e1
      obtain ⟨⟨raw, b'⟩, e3, e1⟩ := Res.bind_eq_ok.1 e1
      obtain ⟨out, e4, e1⟩ := Res.bind_eq_ok.1 e1
      cases e1
      have hraw := hv (by simp [hlen]) e3
      have hout := hc e4
      refine a5 (x := x) (t := t) (ks := ls') ?_
      rw [hraw] at hout
      have : (ns.map fun k x => c * affine k.weights (fs.map fun f => f x) 1).map (fun f => f x) = y1 := by
        rw [hout, List.map_map, List.map_map]
        apply List.map_congr_left
        intro k _
        simp [Act.obj, ActObj.function, mul_comm]
      rw [this]
      exact e2

variable [FText ℝ]

theorem perceptron_forms {act : Act} {arch : List (LayerModel ℝ)} (hp : Perceptron act arch) {sh sh' : List Nat} (hw : WellFormed arch sh sh') {s : Snn ℝ} (h : Reach arch s) :
    ∃ gs : List (List ℝ → ℝ), gs.length = sh'.prod ∧ (∀ g ∈ gs, IsForm sh.prod g) ∧
      ∀ {x y : List ℝ} {t : Bool} {s' : Snn ℝ}, x.length = sh.prod → s.computeOutput x t = .ok (y, s') → y = gs.map fun g => act.obj.function (g x) := by
  have hi := StructProps.C68_structure hw h
  obtain ⟨s0, hidden, n, opts, rfl, hh, ho⟩ := hp
  obtain ⟨m, rest, e, hch⟩ := hw.layers
  simp only [List.cons.injEq] at e
  obtain ⟨_, e⟩ := e
  rw [← e] at hch
  simp only [List.tail_cons] at hi
  obtain ⟨ls1, l, sh1, sh2, gs, a1, a2, a3, a4, a5, a6⟩ := loop_forms hh (fs := (List.range sh.prod).map fun i (x : List ℝ) => x.getD i 0) (n0 := sh.prod) hi (by simp)
    (by intro f hf; obtain ⟨i, hi, rfl⟩ := List.mem_map.1 hf; exact IsForm.coord (by simpa using hi))
  obtain ⟨ns, hn, hv⟩ := dense_val a2
  refine ⟨ns.map fun k x => affine k.weights (gs.map fun g => g x) 1, ?_, ?_, ?_⟩
  · have hlast : sh' = [n.toNat] := by
      clear hi hv a1 a2 a3 a4 a5 a6 hn e hw h
      revert hch
      generalize sh = s1
      induction hidden generalizing s1 with
      | nil => intro hch; cases hch with
        | cons hg hf hc =>
          cases hf with
          | fullyConnected _ => cases hc; simp
      | cons m1 ms ih => intro hch; cases hch with
        | cons hg hf hc => exact ih (fun m hm => hh m (by simp [hm])) _ hc
    rw [hlast]
    simp; omega
  · intro g hg
    obtain ⟨k, _, rfl⟩ := List.mem_map.1 hg
    exact form_comp a5 k.weights
  · intro x y t s' hx hc
    unfold Snn.computeOutput at hc
    obtain ⟨⟨o, n1⟩, h1, hc⟩ := Res.bind_eq_ok.1 hc
    cases hc
    unfold Net.output at h1
    split at h1
    · cases h1
    obtain ⟨⟨o, n2⟩, h2, h1⟩ := Res.bind_eq_ok.1 h1
    cases h1
    rw [a1] at h2
    obtain ⟨z, k1, k2, e1, e2⟩ := RangeProps.outputLoop_append h2
    have hx' : ((List.range sh.prod).map fun i (x : List ℝ) => x.getD i 0).map (fun f => f x) = x := by
      rw [List.map_map]
      apply List.ext_getElem?
      intro i
      by_cases hi : i < sh.prod
      · simp [hi, List.getD_eq_getElem?_getD, List.getElem?_eq_getElem (show i < x.length by omega)]
      · simp [hi, List.getElem?_eq_none (show x.length ≤ i by omega)]
    have hz := a6 (x := x) (by rw [hx']; exact e1)
    obtain ⟨raw, b', e3, e4⟩ := RangeProps.one_layer e2
    have hraw := hv (by rw [hz]; simp [a4]) e3
    have hopts : l.optimizers.map settingOf = opts := a2.2.1
    have := hooks_silent (fun o hm => ho _ (hopts ▸ List.mem_map.2 ⟨o, hm, rfl⟩)) e4
    rw [this, hraw, hz, List.map_map]
    rfl

/-! ### Thresholds -/

open Classical in
theorem threshold {U : ℝ → Prop} (hU : ∀ a b, a ≤ b → U a → U b) (vs : List ℝ) : ∃ c, ∀ a ∈ vs, U a ↔ c < a := by
  by_cases hb : (vs.toFinset.filter fun v => ¬ U v).Nonempty
  · refine ⟨(vs.toFinset.filter fun v => ¬ U v).max' hb, ?_⟩
    have hm := Finset.max'_mem _ hb
    intro a ha
    constructor
    · intro h
      by_contra hn
      exact (Finset.mem_filter.1 hm).2 (hU _ _ (not_lt.1 hn) h)
    · intro h
      by_contra hn
      have := Finset.le_max' (vs.toFinset.filter fun v => ¬ U v) a (by rw [Finset.mem_filter, List.mem_toFinset]; exact ⟨ha, hn⟩)
      linarith
  · obtain ⟨c, hc⟩ := vs.toFinset.bddBelow
    refine ⟨c - 1, ?_⟩
    intro a ha
    have h1 : c ≤ a := hc (by simpa using ha)
    refine ⟨fun _ => by linarith, fun _ => ?_⟩
    by_contra hn
    exact hb ⟨a, by rw [Finset.mem_filter, List.mem_toFinset]; exact ⟨ha, hn⟩⟩

end Snn
