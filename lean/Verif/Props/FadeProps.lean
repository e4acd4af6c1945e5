import Verif.Proofs.FadeProofs
import Verif.Props.RobustProps
import Verif.Props.StructProps
import Verif.Props.InitProps

/-!
# C96: a network whose recurrent layers have a feedback below 1 forgets its past
-/

set_option linter.all false

namespace Snn.FadeProps

open Snn.Spec Snn.Robust Snn.Fade Snn.HistoryProps Snn.SafeProps Snn.RobustProps Snn.NeuronSpec

theorem near_refl (x : List ℝ) : Near 0 x x := forall₂_refl (fun a => by simp) x

theorem computeOutput_eq {s : Snn ℝ} {x y : List ℝ} {t : Bool} {m : List (Layer ℝ)} (hne : s.net.layers ≠ []) (h : outputLoop t s.net.layers x = .ok (y, m)) :
    ∃ s1, s.computeOutput x t = .ok (y, s1) ∧ s1.net.layers = m := by
  have hne' : s.net.layers.isEmpty = false := by simpa using hne
  exact ⟨{ s with net := { s.net with layers := m, outputNan := s.net.outputNan || hasBadValue y } }, by simp [Snn.computeOutput, Net.output, hne', h], rfl⟩

theorem replies_near {ρ : ℝ} (hρ : 0 ≤ ρ) {ni no : Nat} {C : ℝ} : ∀ (xs : List (List ℝ × Bool)), (∀ x ∈ xs, x.1.length = ni) → ∀ {a b : Snn ℝ} {κ : ℝ}, 0 ≤ κ →
    LayersWF a.net.layers ni no → LayersWF b.net.layers ni no → a.net.layers ≠ [] → b.net.layers ≠ [] → Tied ρ κ 0 a.net.layers b.net.layers C →
    ∃ ys ys' a' b', replies a xs = .ok (ys, a') ∧ replies b xs = .ok (ys', b') ∧ ys.length = xs.length ∧ ys'.length = xs.length ∧
      ∀ k < xs.length, Near (C * (κ * ρ ^ k)) (ys.getD k []) (ys'.getD k [])
  | [], _, a, b, κ, _, _, _, _, _, _ => ⟨[], [], a, b, rfl, rfl, rfl, rfl, by simp⟩
  | (x, t) :: xs, hx, a, b, κ, hκ, wa, wb, na, nb, ht => by
    have hl : x.length = ni := hx (x, t) (by simp)
    obtain ⟨y, m, y', m', e, e', hn, ht'⟩ := tied_step hρ ht wa wb le_rfl hκ hl (by rw [zero_mul]; exact near_refl x) t
    obtain ⟨a1, ea, la⟩ := computeOutput_eq na e
    obtain ⟨b1, eb, lb⟩ := computeOutput_eq nb e'
    obtain ⟨_, _, q, _, w1, _⟩ := outputLoop_ok t wa x hl
    rw [e] at q
    cases q
    obtain ⟨_, _, q, _, w2, _⟩ := outputLoop_ok t wb x hl
    rw [e'] at q
    cases q
    have n1 : a1.net.layers ≠ [] := by
      rw [la]; have := (outputLoop_same t e).length_eq; intro h0; rw [h0] at this; exact na (List.length_eq_zero_iff.1 (by simpa using this))
    have n2 : b1.net.layers ≠ [] := by
      rw [lb]; have := (outputLoop_same t e').length_eq; intro h0; rw [h0] at this; exact nb (List.length_eq_zero_iff.1 (by simpa using this))
    obtain ⟨ys, ys', a', b', f, f', l, l', g⟩ := replies_near hρ xs (fun z hz => hx z (by simp [hz])) (mul_nonneg hκ hρ) (la ▸ w1) (lb ▸ w2) n1 n2 (la ▸ lb ▸ ht')
    refine ⟨y :: ys, y' :: ys', a', b', by simp [replies, ea, f], by simp [replies, eb, f'], by simp [l], by simp [l'], ?_⟩
    intro k hk
    cases k with
    | zero => simpa using hn
    | succ k =>
      have := g k (by simpa using hk)
      rw [show κ * ρ * ρ ^ k = κ * ρ ^ (k + 1) by ring] at this
      simpa using this

variable [FText ℝ]

theorem history_reach {arch : List (LayerModel ℝ)} : ∀ {calls : List (Call ℝ)} {r r' : Run ℝ}, Reach arch r.snn → calls.foldlM Call.run r = .ok r' → Reach arch r'.snn
  | [], r, r', h, e => by cases e; exact h
  | c :: cs, r, r', h, e => by
    rw [List.foldlM_cons] at e
    obtain ⟨r1, h1, e⟩ := Res.bind_eq_ok.1 e
    exact history_reach (.call h h1) e

theorem replies_kept (r0 : Run ℝ) {arch : List (LayerModel ℝ)} {ni no : Nat} : ∀ {xs : List (List ℝ × Bool)}, (∀ x ∈ xs, x.1.length = ni) → ∀ {s s' : Snn ℝ} {ys : List (List ℝ)}, Reach arch s →
    LayersWF s.net.layers ni no → replies s xs = .ok (ys, s') → Reach arch s' ∧ LayersWF s'.net.layers ni no ∧ List.Forall₂ Layer.Same s.net.layers s'.net.layers
  | [], _, s, s', ys, hr, hw, h => by cases h; exact ⟨hr, hw, forall₂_refl Layer.Same.refl _⟩
  | (x, t) :: xs, hx, s, s', ys, hr, hw, h => by
    obtain ⟨⟨y, s1⟩, h1, h⟩ := Res.bind_eq_ok.1 h
    obtain ⟨⟨ys2, s2⟩, h2, h⟩ := Res.bind_eq_ok.1 h
    cases h
    have hr1 : Reach arch s1 := by
      refine Reach.call (c := .computeOutput x t) (r := { r0 with snn := s }) (r' := { r0 with snn := s1 }) hr ?_
      simp [Call.run, h1]
    have hcopy := h1
    unfold Snn.computeOutput at h1
    obtain ⟨⟨o, n⟩, h3, h1⟩ := Res.bind_eq_ok.1 h1
    cases h1
    have hs := (Net.output_same h3).1
    unfold Net.output at h3
    split at h3
    · cases h3
    obtain ⟨⟨z, ls⟩, h4, h3⟩ := Res.bind_eq_ok.1 h3
    obtain ⟨_, _, q, _, w1, _⟩ := outputLoop_ok t hw x (hx (x, t) (by simp))
    rw [h4] at q
    cases q
    cases h3
    obtain ⟨k1, k2, k3⟩ := replies_kept r0 (fun z hz => hx z (by simp [hz])) hr1 w1 h2
    exact ⟨k1, k2, forall₂_trans (R := Layer.Same) (fun _ _ _ p q => p.trans q) hs k3⟩

theorem netIs_acts {opt : Sgd ℝ} {ms : List (LayerModel ℝ)} {s : List Nat} {ls : List (Layer ℝ)} (h : NetIs opt ms s ls) : ∀ l ∈ ls, l.body.GruAll fun g => GruActs g := by
  induction h with
  | nil => simp
  | @cons m ms s s' l ls hm hl _ _ ih =>
    intro l' hl'
    rcases List.mem_cons.1 hl' with rfl | hl'
    · obtain ⟨_, hl⟩ := hl
      cases e : l'.body with
      | gru gs =>
        cases m with
        | gru n opts =>
          obtain ⟨_, ns, hb, _, hk⟩ := hl
          rw [e] at hb
          cases hb
          exact fun g hg => ⟨(hk g hg).1.activation, (hk g hg).2.1.activation, (hk g hg).2.2.activation⟩
        | input => exact hl.elim
        | fullyConnected => obtain ⟨_, _, hb, _⟩ := hl; rw [e] at hb; cases hb
        | recurrence => obtain ⟨_, _, hb, _⟩ := hl; rw [e] at hb; cases hb
        | convolution => obtain ⟨_, _, _, _, hb, _⟩ := hl; rw [e] at hb; cases hb
        | locallyConnected => obtain ⟨_, _, _, _, hb, _⟩ := hl; rw [e] at hb; cases hb
        | maxPooling => obtain ⟨_, _, _, _, _, hb, _⟩ := hl; rw [e] at hb; cases hb
      | fullyConnected => trivial
      | recurrence => trivial
      | filter => trivial
      | pool => trivial
    · exact ih l' hl'

/-- **C96** (real arithmetic): for every well-formed architecture, with any recurrent layers, after every history of calls: if every
recurrent neuron and unit has a feedback of at most q, then after two different pasts of any lengths the answers of the network to one
common sequence of inputs, of any length and with any flags of temporal reset, come together at least as fast as ρ^k, for every ρ
above q. The constant C does not depend on the common sequence. -/
theorem C96_forgets {arch : List (LayerModel ℝ)} {s s' : List Nat} (h : WellFormed arch s s') (he : EndsWithNeurons arch)
    {opt : Sgd ℝ} {d d' : Draws ℝ} {snn : Snn ℝ} (hm : Snn.make arch opt d = .ok (snn, d'))
    {calls : List (Call ℝ)} (hc : ∀ c ∈ calls, CallFits s.prod s'.prod c) {r r' : Run ℝ} (hr : r.snn = snn) (hrun : calls.foldlM Call.run r = .ok r')
    {q ρ : ℝ} (hq : 0 ≤ q) (hqρ : q < ρ) (hf : ∀ l ∈ r'.snn.net.layers, FeedbackBelow q (layerParams l))
    {past past' : List (List ℝ × Bool)} (hp : ∀ x ∈ past, x.1.length = s.prod) (hp' : ∀ x ∈ past', x.1.length = s.prod)
    {ys ys' : List (List ℝ)} {a b : Snn ℝ} (ha : replies r'.snn past = .ok (ys, a)) (hb : replies r'.snn past' = .ok (ys', b)) :
    ∃ C, 0 ≤ C ∧ ∀ xs : List (List ℝ × Bool), (∀ x ∈ xs, x.1.length = s.prod) →
      ∃ zs zs' a' b', replies a xs = .ok (zs, a') ∧ replies b xs = .ok (zs', b') ∧ zs.length = xs.length ∧ zs'.length = xs.length ∧
        ∀ k < xs.length, Near (C * ρ ^ k) (zs.getD k []) (zs'.getD k []) := by
  obtain ⟨hs, hi⟩ := make_safe h he hm
  have hs' := history_safeNet hc (hr ▸ hs) (hr ▸ hi) hrun
  have hreach : Reach arch r'.snn := history_reach (hr ▸ .make hm) hrun
  obtain ⟨ra, wa, sa⟩ := replies_kept r' hp hreach hs'.wf.layers ha
  obtain ⟨rb, wb, sb⟩ := replies_kept r' hp' hreach hs'.wf.layers hb
  have hsame : List.Forall₂ Layer.Same a.net.layers b.net.layers :=
    forall₂_trans (R := Layer.Same) (fun _ _ _ p q => p.trans q) (forall₂_symm (fun _ _ k => same_symm k) sa) sb
  have hfa : ∀ l ∈ a.net.layers, FeedbackBelow q (layerParams l) := by
    intro l hl
    obtain ⟨l0, hl0, k⟩ := forall₂_mem_right sa l hl
    rw [Layer.Same.params k]
    exact hf l0 hl0
  have za : ∀ l ∈ a.net.layers, l.body.GruAll fun g => g.previousOutput = 0 := by simpa using ra.gruZero h
  have zb : ∀ l ∈ b.net.layers, l.body.GruAll fun g => g.previousOutput = 0 := by simpa using rb.gruZero h
  obtain ⟨C, h0, ht⟩ := tied_start hq hqρ hsame hfa (netIs_acts (StructProps.C68_structure h ra)) za zb (E := 0) le_rfl
  have na : a.net.layers ≠ [] := by intro e; have := sa.length_eq; rw [e] at this; exact hs'.wf.ne (List.length_eq_zero_iff.1 (by simpa using this))
  have nb : b.net.layers ≠ [] := by intro e; have := sb.length_eq; rw [e] at this; exact hs'.wf.ne (List.length_eq_zero_iff.1 (by simpa using this))
  refine ⟨C, h0, fun xs hx => ?_⟩
  obtain ⟨zs, zs', a', b', e1, e2, e3, e4, e5⟩ := replies_near (by linarith) xs hx zero_le_one wa wb na nb ht
  refine ⟨zs, zs', a', b', e1, e2, e3, e4, fun k hk => ?_⟩
  have := e5 k hk
  rwa [one_mul] at this

/-- **C96**, the consequence: with a feedback below 1 the past is forgotten: for every tolerance η there is a number of answers N, the
same for all the common sequences, after which the two networks answer within η of each other. -/
theorem C96_forgotten {arch : List (LayerModel ℝ)} {s s' : List Nat} (h : WellFormed arch s s') (he : EndsWithNeurons arch)
    {opt : Sgd ℝ} {d d' : Draws ℝ} {snn : Snn ℝ} (hm : Snn.make arch opt d = .ok (snn, d'))
    {calls : List (Call ℝ)} (hc : ∀ c ∈ calls, CallFits s.prod s'.prod c) {r r' : Run ℝ} (hr : r.snn = snn) (hrun : calls.foldlM Call.run r = .ok r')
    {q : ℝ} (hq : 0 ≤ q) (hq1 : q < 1) (hf : ∀ l ∈ r'.snn.net.layers, FeedbackBelow q (layerParams l))
    {past past' : List (List ℝ × Bool)} (hp : ∀ x ∈ past, x.1.length = s.prod) (hp' : ∀ x ∈ past', x.1.length = s.prod)
    {ys ys' : List (List ℝ)} {a b : Snn ℝ} (ha : replies r'.snn past = .ok (ys, a)) (hb : replies r'.snn past' = .ok (ys', b)) {η : ℝ} (hη : 0 < η) :
    ∃ N, ∀ xs : List (List ℝ × Bool), (∀ x ∈ xs, x.1.length = s.prod) →
      ∃ zs zs' a' b', replies a xs = .ok (zs, a') ∧ replies b xs = .ok (zs', b') ∧
        ∀ k, N ≤ k → k < xs.length → Near η (zs.getD k []) (zs'.getD k []) := by
  obtain ⟨C, h0, hC⟩ := C96_forgets h he hm hc hr hrun hq (show q < (q + 1) / 2 by linarith) hf hp hp' ha hb
  have hρ : (q + 1) / 2 < 1 := by linarith
  have hρ0 : 0 ≤ (q + 1) / 2 := by linarith
  obtain ⟨N, hN⟩ := exists_pow_lt_of_lt_one (show 0 < η / (C + 1) by positivity) hρ
  refine ⟨N, fun xs hx => ?_⟩
  obtain ⟨zs, zs', a', b', e1, e2, _, _, e5⟩ := hC xs hx
  refine ⟨zs, zs', a', b', e1, e2, fun k hk hk' => near_mono ?_ (e5 k hk')⟩
  have h1 : ((q + 1) / 2) ^ k ≤ ((q + 1) / 2) ^ N := pow_le_pow_of_le_one hρ0 hρ.le hk
  have h2 : ((q + 1) / 2) ^ k ≤ η / (C + 1) := by linarith
  rw [le_div_iff₀ (by linarith)] at h2
  have h3 : 0 ≤ ((q + 1) / 2) ^ k := by positivity
  linarith

/-! ### New networks -/

/-- The recurrent layers of the architecture are `Recurrence` layers with a sigmoid or an improved sigmoid. -/
def SigmoidRecurrence (arch : List (LayerModel ℝ)) : Prop :=
  ∀ m ∈ arch, match m with
    | .recurrence _ act _ => act = .sigmoid ∨ act = .iSigmoid
    | .gru _ _ => False
    | _ => True

theorem netIs_new {opt : Sgd ℝ} {ms : List (LayerModel ℝ)} {s : List Nat} {ls : List (Layer ℝ)} (h : NetIs opt ms s ls) (ha : SigmoidRecurrence ms)
    (hb : ∀ ws ∈ ls.flatMap units, ∀ w ∈ ws, |w| ≤ 12 / 5 / Real.sqrt ws.length) : ∀ l ∈ ls, FeedbackBelow (18 / 25) (layerParams l) := by
  induction h with
  | nil => simp
  | @cons m ms s s' l ls hm hl _ _ ih =>
    intro l' hl'
    rcases List.mem_cons.1 hl' with rfl | hl'
    · obtain ⟨_, hl⟩ := hl
      have hu : ∀ ws ∈ units l', ∀ w ∈ ws, |w| ≤ 12 / 5 / Real.sqrt ws.length := fun ws h => hb ws (by simp [h])
      have ham := ha m (by simp)
      cases e : l'.body with
      | gru gs =>
        exfalso
        cases m with
        | gru n opts => exact ham
        | input => exact hl.elim
        | fullyConnected => obtain ⟨_, _, hb, _⟩ := hl; rw [e] at hb; cases hb
        | recurrence => obtain ⟨_, _, hb, _⟩ := hl; rw [e] at hb; cases hb
        | convolution => obtain ⟨_, _, _, _, hb, _⟩ := hl; rw [e] at hb; cases hb
        | locallyConnected => obtain ⟨_, _, _, _, hb, _⟩ := hl; rw [e] at hb; cases hb
        | maxPooling => obtain ⟨_, _, _, _, _, hb, _⟩ := hl; rw [e] at hb; cases hb
      | recurrence ns =>
        cases m with
        | recurrence n act opts =>
          obtain ⟨_, ns', hb', _, hk⟩ := hl
          rw [e] at hb'
          cases hb'
          simp only [FeedbackBelow, layerParams, e]
          intro p hp
          obtain ⟨n1, hn1, rfl⟩ := List.mem_map.1 hp
          have hlen := (hk n1 hn1).weights
          have hw : |recurrentWeight (neuronParams n1.base)| ≤ 12 / 5 := by
            unfold recurrentWeight
            have e1 : (neuronParams n1.base).weights = n1.base.weights := rfl
            rw [e1, List.getD_eq_getElem _ _ (by omega)]
            refine le_trans (hu n1.base.weights (by unfold units; rw [e]; exact List.mem_map.2 ⟨n1, hn1, rfl⟩) _ (List.getElem_mem _)) ?_
            have : (1 : ℝ) ≤ Real.sqrt n1.base.weights.length := by
              rw [Real.one_le_sqrt]
              have : 1 ≤ n1.base.weights.length := by omega
              exact_mod_cast this
            rw [div_le_iff₀ (by linarith)]
            linarith
          unfold neuronFeedback
          have e2 : (neuronParams n1.base).activation = act := (hk n1 hn1).activation
          rw [e2]
          have h0 := abs_nonneg (recurrentWeight (neuronParams n1.base))
          rcases ham with rfl | rfl <;> simp only [actGain] <;> linarith
        | input => exact hl.elim
        | fullyConnected => obtain ⟨_, _, hb, _⟩ := hl; rw [e] at hb; cases hb
        | gru => obtain ⟨_, _, hb, _⟩ := hl; rw [e] at hb; cases hb
        | convolution => obtain ⟨_, _, _, _, hb, _⟩ := hl; rw [e] at hb; cases hb
        | locallyConnected => obtain ⟨_, _, _, _, hb, _⟩ := hl; rw [e] at hb; cases hb
        | maxPooling => obtain ⟨_, _, _, _, _, hb, _⟩ := hl; rw [e] at hb; cases hb
      | fullyConnected => simp [FeedbackBelow, layerParams, e]
      | filter => simp [FeedbackBelow, layerParams, e]
      | pool => simp [FeedbackBelow, layerParams, e]
    · exact ih (fun m hm => ha m (by simp [hm])) (fun ws h => hb ws (by simp only [List.flatMap_cons, List.mem_append]; exact .inr h)) l' hl'

/-- **C96**, for new networks: with sigmoid recurrent layers the initial weights are small enough, whatever the random draws: the
feedback is at most 0.72, and a new network forgets its past. -/
theorem C96_new {arch : List (LayerModel ℝ)} {s s' : List Nat} (h : WellFormed arch s s') (he : EndsWithNeurons arch) (hsig : SigmoidRecurrence arch)
    {opt : Sgd ℝ} {d d' : Draws ℝ} (hd : ∀ i, 0 ≤ d i ∧ d i ≤ 1) {snn : Snn ℝ} (hm : Snn.make arch opt d = .ok (snn, d')) (r : Run ℝ)
    {past past' : List (List ℝ × Bool)} (hp : ∀ x ∈ past, x.1.length = s.prod) (hp' : ∀ x ∈ past', x.1.length = s.prod)
    {ys ys' : List (List ℝ)} {a b : Snn ℝ} (ha : replies snn past = .ok (ys, a)) (hb : replies snn past' = .ok (ys', b)) {η : ℝ} (hη : 0 < η) :
    ∃ N, ∀ xs : List (List ℝ × Bool), (∀ x ∈ xs, x.1.length = s.prod) →
      ∃ zs zs' a' b', replies a xs = .ok (zs, a') ∧ replies b xs = .ok (zs', b') ∧
        ∀ k, N ≤ k → k < xs.length → Near η (zs.getD k []) (zs'.getD k []) := by
  have hr : Reach arch snn := .make hm
  have hst := StructProps.C68_structure h hr
  have hf := netIs_new hst (fun m hm => hsig m (List.mem_of_mem_tail hm)) (fun ws hws => (InitProps.C81_bounds arch opt d d' snn hm hd ws hws).1)
  exact C96_forgotten (calls := []) (r := { r with snn := snn }) (r' := { r with snn := snn }) h he hm (by simp) rfl rfl
    (q := 18 / 25) (by norm_num) (by norm_num) hf hp hp' ha hb hη

/-! ### A case that meets the hypotheses -/

def demoRec : List (LayerModel ℝ) := [.input [2], .recurrence 3 .sigmoid [], .fullyConnected 1 .identity []]

theorem demoRec_wf : WellFormed demoRec [2] [1] := by
  have g1 : GoodShape [2] := ⟨by simp, by simp, by simp⟩
  have g2 : GoodShape [3] := ⟨by simp, by simp, by simp⟩
  have g3 : GoodShape [1] := ⟨by simp, by simp, by simp⟩
  exact ⟨⟨_, _, rfl, .cons g1 (Fits.recurrence (n := 3) (by omega)) (.cons g2 (Fits.fullyConnected (n := 1) (by omega)) (.nil g3))⟩, by simp [demoRec]⟩

/-- A recurrent network that answered [1, 0] before, and the same network that answered nothing. -/
example : ∃ snn d' ys a, WellFormed demoRec [2] [1] ∧ EndsWithNeurons demoRec ∧ SigmoidRecurrence demoRec ∧ Snn.make demoRec demoSgd demoDraws = .ok (snn, d') ∧
    (∀ i, 0 ≤ demoDraws i ∧ demoDraws i ≤ 1) ∧ replies snn [([1, 0], true)] = .ok (ys, a) ∧ replies snn [] = .ok ([], snn) := by
  have hd : ∀ i, 0 ≤ demoDraws i ∧ demoDraws i ≤ 1 := fun i => by unfold demoDraws; split <;> [norm_num; (split <;> norm_num)]
  obtain ⟨snn, d', hm⟩ := ArchProps.C49_accepted_if demoRec_wf (opt := demoSgd) (by norm_num [demoSgd]) (by norm_num [demoSgd])
      (by norm_num [demoSgd]) (by norm_num [demoSgd]) (d := demoDraws) hd
  have he : EndsWithNeurons demoRec := by simp [EndsWithNeurons, demoRec]
  obtain ⟨hs, _⟩ := make_safe demoRec_wf he hm
  obtain ⟨y, ls, e, _⟩ := outputLoop_ok true hs.wf.layers [1, 0] rfl
  obtain ⟨a, ea, _⟩ := computeOutput_eq hs.wf.ne e
  refine ⟨snn, d', [y], a, demoRec_wf, he, ?_, hm, hd, by simp [replies, ea], rfl⟩
  intro m hm
  simp only [demoRec, List.mem_cons, List.not_mem_nil, or_false] at hm
  rcases hm with rfl | rfl | rfl <;> simp

end Snn.FadeProps
