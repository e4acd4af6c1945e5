import Verif.Proofs.ChanceProofs
import Verif.Proofs.MaskProofs
import Verif.Props.PerfectProps
import Verif.Props.RangeProps
import Verif.Props.FilterProps

/-!
# C94 — dropout is right in expectation
-/

set_option linter.all false

namespace Snn.ChanceProps

open Spec HistoryProps MeasureTheory

/-! ### Symbolic outputs -/

/-- The value of the symbolic outputs for given bits. -/
noncomputable def vals (fs : List ((ℕ → ℝ) → ℝ)) (b : ℕ → ℝ) : List ℝ := fs.map fun f => f b

/-- Rates that are probabilities. -/
def Rates (q : ℕ → ℝ) : Prop := ∀ k, 0 ≤ q k ∧ q k ≤ 1

theorem applyMask_vals : ∀ (fs : List ((ℕ → ℝ) → ℝ)) (b : ℕ → ℝ) (p : ℝ) (d : Draws ℝ) (o k : Nat), fs.length ≤ k →
    applyMask (vals fs b) ((List.range' o k).map fun i => fle p (d i)) = (fs.zipIdx o).map fun f => f.1 b * (if p ≤ d f.2 then 1 else 0)
  | [], b, p, d, o, k, h => by cases k <;> simp [vals, applyMask, List.range']
  | f :: fs, b, p, d, o, 0, h => by simp at h
  | f :: fs, b, p, d, o, k + 1, h => by
    have ih := applyMask_vals fs b p d (o + 1) k (by simpa using h)
    simp only [vals] at ih
    simp only [vals, List.map_cons, List.range'_succ, applyMask, List.zipIdx_cons, ih]
    by_cases hp : p ≤ d o <;> simp [fle, hp]

theorem hooks_sym : ∀ (os : List (LayerOpt ℝ)) {k : Nat} {n : Nat} {q : ℕ → ℝ} {fs : List ((ℕ → ℝ) → ℝ)}, (∀ o ∈ os, MeanSafe (settingOf o)) → (∀ o ∈ os, Dropped o) →
    Masks k os → fs.length ≤ k → Rates q → (∀ f ∈ fs, MA n f) → ∃ n' q' gs, n ≤ n' ∧ Rates q' ∧ (∀ j < n, q' j = q j) ∧ gs.length = fs.length ∧ (∀ f ∈ gs, MA n' f) ∧
      (∀ d : Draws ℝ, ∃ os', trainingHooks true os (vals fs (keepBits q d)) (shiftDraws n d) = .ok (vals gs (keepBits q' d), os', shiftDraws n' d)) ∧
      testingHooks os (vals fs fun j => 1 - q j) = .ok (vals gs fun j => 1 - q' j)
  | [], k, n, q, fs, _, _, _, _, hq, hf => ⟨n, q, fs, le_rfl, hq, fun _ _ => rfl, rfl, hf, fun d => ⟨[], rfl⟩, rfl⟩
  | o :: os, k, n, q, fs, hs, hd, hm, hk, hq, hf => by
    have hs' : ∀ o ∈ os, MeanSafe (settingOf o) := fun o h => hs o (by simp [h])
    have hd' : ∀ o ∈ os, Dropped o := fun o h => hd o (by simp [h])
    have hm' : Masks k os := fun v rv m h => hm v rv m (by simp [h])
    have pass : (∀ x t d, o.afterOutputForTraining x t d = .ok (x, o, d)) → (∀ x, o.afterOutputForTesting x = .ok x) → ∃ n' q' gs, n ≤ n' ∧ Rates q' ∧ (∀ j < n, q' j = q j) ∧ gs.length = fs.length ∧ (∀ f ∈ gs, MA n' f) ∧
        (∀ d : Draws ℝ, ∃ os', trainingHooks true (o :: os) (vals fs (keepBits q d)) (shiftDraws n d) = .ok (vals gs (keepBits q' d), os', shiftDraws n' d)) ∧
        testingHooks (o :: os) (vals fs fun j => 1 - q j) = .ok (vals gs fun j => 1 - q' j) := by
      intro h1 h2
      obtain ⟨n', q', gs, a1, a2, a3, a4, a5, a6, a7⟩ := hooks_sym os hs' hd' hm' hk hq hf
      refine ⟨n', q', gs, a1, a2, a3, a4, a5, fun d => ?_, ?_⟩
      · obtain ⟨os', h⟩ := a6 d
        refine ⟨o :: os', ?_⟩
        unfold trainingHooks
        simp only [h1, Res.ok_bind, h]
        rfl
      · unfold testingHooks
        simp only [h2, Res.ok_bind, a7]
    cases o with
    | l1 v => exact pass (fun _ _ _ => rfl) (fun _ => rfl)
    | l2 v => exact pass (fun _ _ _ => rfl) (fun _ => rfl)
    | errorMultiplier v => exact pass (fun _ _ _ => rfl) (fun _ => rfl)
    | softmax => exact (hs .softmax (by simp)).elim
    | dropout p rv mask =>
      have hp : 0 ≤ p ∧ p ≤ 1 := hs (.dropout p rv mask) (by simp)
      have hr : rv = 1 - p := by simpa [Dropped] using hd (.dropout p rv mask) (by simp)
      have hk1 : mask.length = k := hm p rv mask (by simp)
      let q1 : ℕ → ℝ := fun j => if j < n then q j else p
      let gs : List ((ℕ → ℝ) → ℝ) := (fs.zipIdx n).map fun f => fun b => f.1 b * b f.2
      have hq1 : Rates q1 := fun j => by
        show 0 ≤ (if j < n then q j else p) ∧ (if j < n then q j else p) ≤ 1
        split
        · exact hq j
        · exact hp
      have hgs : gs.length = fs.length := by simp [gs]
      have hma : ∀ f ∈ gs, MA (n + k) f := by
        intro g hg
        obtain ⟨⟨f, i⟩, hf1, rfl⟩ := List.mem_map.1 hg
        obtain ⟨h1, h2, h3⟩ := List.mem_zipIdx hf1
        exact (hf f (by rw [h3]; exact List.getElem_mem _)).mul_bit h1 (by omega)
      obtain ⟨n', q', hs2, a1, a2, a3, a4, a5, a6, a7⟩ := hooks_sym os hs' hd' hm' (hgs.trans_le hk) hq1 hma
      have hbits : ∀ f ∈ fs, ∀ d, f (keepBits q1 d) = f (keepBits q d) := fun f hf' d => (hf f hf').congr fun j hj => by simp [keepBits, q1, hj]
      have hmean : ∀ f ∈ fs, f (fun j => 1 - q1 j) = f (fun j => 1 - q j) := fun f hf' => (hf f hf').congr fun j hj => by simp [q1, hj]
      refine ⟨n', q', hs2, by omega, a2, fun j hj => by rw [a3 j (by omega)]; simp [q1, hj], a4.trans hgs, a5, fun d => ?_, ?_⟩
      · obtain ⟨os', h⟩ := a6 d
        have e : applyMask (vals fs (keepBits q d)) (generateMask p mask.length (shiftDraws n d)) = vals gs (keepBits q1 d) := by
          have := applyMask_vals fs (keepBits q d) p d n k hk
          rw [hk1]
          have e2 : generateMask p k (shiftDraws n d) = (List.range' n k).map fun i => fle p (d i) := by
            rw [List.range'_eq_map_range, List.map_map]
            rfl
          rw [e2, this]
          simp only [vals, gs, List.map_map]
          refine List.map_congr_left fun f hf1 => ?_
          obtain ⟨h1, h2, h3⟩ := List.mem_zipIdx hf1
          have h4 : f.1 ∈ fs := by rw [h3]; exact List.getElem_mem _
          simp only [Function.comp, hbits f.1 h4]
          congr 1
          simp [keepBits, q1, not_lt.2 h1]
        refine ⟨.dropout p rv (generateMask p mask.length (shiftDraws n d)) :: os', ?_⟩
        unfold trainingHooks
        simp only [LayerOpt.afterOutputForTraining, if_true, Res.ok_bind, e]
        have e3 : shiftDraws mask.length (shiftDraws n d) = shiftDraws (n + k) d := by
          funext i
          simp [shiftDraws, hk1, Nat.add_assoc]
        rw [e3, h]
        rfl
      · unfold testingHooks
        simp only [LayerOpt.afterOutputForTesting, Res.ok_bind]
        have e : (vals fs fun j => 1 - q j).map (fun v => v * rv) = vals gs fun j => 1 - q1 j := by
          have e0 : ∀ (l : List ((ℕ → ℝ) → ℝ)) (o : Nat), n ≤ o → (∀ f ∈ l, f ∈ fs) → (vals l fun j => 1 - q j).map (fun v => v * rv) = (l.zipIdx o).map fun f => f.1 (fun j => 1 - q1 j) * (1 - q1 f.2) := by
            intro l
            induction l with
            | nil => intro o _ _; rfl
            | cons f l ih =>
              intro o ho hl
              have ih := ih (o + 1) (by omega) (fun f h => hl f (by simp [h]))
              simp only [vals] at ih
              simp only [vals, List.map_cons, List.zipIdx_cons]
              rw [ih]
              congr 1
              rw [hmean f (hl f (by simp)), hr]
              simp [q1, not_lt.2 ho]
          rw [e0 fs n le_rfl (fun _ h => h)]
          simp [vals, gs]
        rw [e, a7]

/-! ### Linear layers -/

theorem dotLoop_eq : ∀ {xs ws : List ℝ} {t y : ℝ}, dotLoop t xs ws = .ok y → ∀ xs' : List ℝ, xs'.length = xs.length → ∀ t', dotLoop t' xs' ws = .ok (t' + (List.zipWith (fun x w => x * w) xs' ws).sum)
  | [], ws, t, y, h, xs', hl, t' => by
    have : xs' = [] := by simpa using hl
    subst this
    simp [dotLoop]
  | x :: xs, [], t, y, h, xs', hl, t' => by cases h
  | x :: xs, w :: ws, t, y, h, [], hl, t' => by simp at hl
  | x :: xs, w :: ws, t, y, h, x' :: xs', hl, t' => by
    simp only [dotLoop] at h ⊢
    rw [dotLoop_eq h xs' (by simpa using hl)]
    simp only [List.zipWith_cons_cons, List.sum_cons, Res.ok.injEq]
    ring

/-- The symbolic output of a linear neuron. -/
noncomputable def symNeuron (fs : List ((ℕ → ℝ) → ℝ)) (n : Neuron ℝ) : (ℕ → ℝ) → ℝ :=
  fun b => (List.zipWith (fun x w => x * w) (vals fs b) n.weights).sum + n.weights.getD fs.length 0 * n.bias

theorem symNeuron_ma {m : Nat} {fs : List ((ℕ → ℝ) → ℝ)} (h : ∀ f ∈ fs, MA m f) (n : Neuron ℝ) : MA m (symNeuron fs n) := by
  refine MA.add ?_ (MA.const m _)
  generalize n.weights = ws
  induction fs generalizing ws with
  | nil => simpa [vals] using MA.const m 0
  | cons f fs ih =>
    cases ws with
    | nil => simpa [vals] using MA.const m 0
    | cons w ws =>
      simp only [vals, List.map_cons, List.zipWith_cons_cons, List.sum_cons]
      exact ((h f (by simp)).mul_const w).add (ih (fun f hf => h f (by simp [hf])) ws)

theorem neuron_lin {n n' : Neuron ℝ} {x : List ℝ} {y : ℝ} (h : n.output x = .ok (y, n')) (ha : n.activationFunction = .identity) (fs : List ((ℕ → ℝ) → ℝ)) (hl : fs.length = x.length) (b : ℕ → ℝ) :
    ∃ n'', n.output (vals fs b) = .ok (symNeuron fs n b, n'') := by
  unfold Neuron.output at h ⊢
  obtain ⟨c, h1, h⟩ := Res.bind_eq_ok.1 h
  obtain ⟨s, h2, h⟩ := Res.bind_eq_ok.1 h
  obtain ⟨w, h3, h⟩ := Res.bind_eq_ok.1 h
  have hv : (vals fs b).length = x.length := by simp [vals, hl]
  have e1 : ∃ c', n.lastInputs.pushBack (vals fs b) = .ok c' := by
    unfold Circ.pushBack at h1 ⊢
    obtain ⟨q, h4, _⟩ := Res.bind_eq_ok.1 h1
    exact ⟨_, Res.bind_eq_ok.2 ⟨_, wr_eq_ok.2 ⟨(wr_eq_ok.1 h4).1, rfl⟩, rfl⟩⟩
  obtain ⟨c', e1⟩ := e1
  have hw : w = n.weights.getD fs.length 0 := by
    have := (rd_eq_ok.1 h3).2
    rw [Int.toNat_natCast] at this
    rw [hl, List.getD_eq_getElem?_getD, this]
    rfl
  refine ⟨{ n with lastInputs := c', sum := symNeuron fs n b }, ?_⟩
  refine Res.bind_eq_ok.2 ⟨_, e1, Res.bind_eq_ok.2 ⟨_, dotLoop_eq h2 _ hv _, Res.bind_eq_ok.2 ⟨w, by rw [hv]; exact h3, ?_⟩⟩⟩
  simp only [ha, Act.apply_ok, Res.ok_bind]
  have e2 : lit 0 + (List.zipWith (fun x w => x * w) (vals fs b) n.weights).sum + w * n.bias = symNeuron fs n b := by
    simp [symNeuron, hw]
  rw [e2]
  rfl

theorem runNeurons_lin {x : List ℝ} (fs : List ((ℕ → ℝ) → ℝ)) (hl : fs.length = x.length) (b : ℕ → ℝ) : ∀ {ns ns' : List (Neuron ℝ)} {os : List ℝ},
    runNeurons (fun n => n.output x) ns = .ok (os, ns') → (∀ n ∈ ns, n.activationFunction = .identity) →
    ∃ ns'', runNeurons (fun n => n.output (vals fs b)) ns = .ok (vals (ns.map (symNeuron fs)) b, ns'')
  | [], ns', os, h, _ => ⟨[], rfl⟩
  | n :: ns, ns', os, h, ha => by
    unfold runNeurons at h
    obtain ⟨⟨o, n1⟩, h1, h⟩ := Res.bind_eq_ok.1 h
    obtain ⟨⟨os1, ns1⟩, h2, h⟩ := Res.bind_eq_ok.1 h
    obtain ⟨n2, e1⟩ := neuron_lin h1 (ha n (by simp)) fs hl b
    obtain ⟨ns2, e2⟩ := runNeurons_lin fs hl b h2 (fun n h => ha n (by simp [h]))
    refine ⟨n2 :: ns2, ?_⟩
    unfold runNeurons
    simp only [e1, Res.ok_bind, e2]
    rfl

/-- What is common to the layers of a network. -/
def Sound (l : Layer ℝ) : Prop := (∀ o ∈ l.optimizers, Dropped o) ∧ l.Masked

/-- Linear layers, one after the other. -/
theorem loop_sym {opt : Sgd ℝ} {ms : List (LayerModel ℝ)} {s : List Nat} {ls : List (Layer ℝ)} (h : NetIs opt ms s ls) :
    (∀ m ∈ ms, ∃ opts, Linear m opts ∧ ∀ o ∈ opts, MeanSafe o) → (∀ l ∈ ls, Sound l) → ∀ {n : Nat} {q : ℕ → ℝ} {fs : List ((ℕ → ℝ) → ℝ)} {y : List ℝ} {ls' : List (Layer ℝ)},
    Rates q → (∀ f ∈ fs, MA n f) → outputLoop true ls (vals fs fun j => 1 - q j) = .ok (y, ls') →
    ∃ n' q' gs, Rates q' ∧ (∀ f ∈ gs, MA n' f) ∧ y = (vals gs fun j => 1 - q' j) ∧
      ∀ d : Draws ℝ, ∃ ls'' d', trainingLoop true ls (vals fs (keepBits q d)) (shiftDraws n d) = .ok (vals gs (keepBits q' d), ls'', d') := by
  induction h with
  | nil =>
    intro _ _ n q fs y ls' hq hf h
    cases h
    exact ⟨n, q, fs, hq, hf, rfl, fun d => ⟨[], _, rfl⟩⟩
  | @cons m ms s s' l ls hm hl ho hs ih =>
    intro hlin hsound n q fs y ls' hq hf h
    obtain ⟨opts, ⟨k, rfl⟩, hsafe⟩ := hlin m (by simp)
    obtain ⟨_, hopts, ns, hb, hlen, hns⟩ := hl
    obtain ⟨hd, hmask⟩ := hsound l (by simp)
    unfold outputLoop at h
    obtain ⟨⟨y1, l1⟩, h1, h⟩ := Res.bind_eq_ok.1 h
    obtain ⟨⟨y2, ls1⟩, h2, h⟩ := Res.bind_eq_ok.1 h
    cases h
    unfold Layer.output at h1
    obtain ⟨⟨a, b⟩, h3, h1⟩ := Res.bind_eq_ok.1 h1
    obtain ⟨a', h4, h1⟩ := Res.bind_eq_ok.1 h1
    cases h1
    have h5 := h3
    rw [hb] at h5
    simp only [Body.computeOutput] at h5
    obtain ⟨⟨os, ns1⟩, h6, h5⟩ := Res.bind_eq_ok.1 h5
    cases h5
    have hid : ∀ n ∈ ns, n.activationFunction = .identity := fun n hn => (hns n hn).activation
    have hfl : fs.length = (vals fs fun j => 1 - q j).length := by simp [vals]
    have run := fun b => runNeurons_lin fs hfl b h6 hid
    obtain ⟨ns2, e1⟩ := run fun j => 1 - q j
    rw [h6] at e1
    cases e1
    have hset : ∀ o ∈ l.optimizers, MeanSafe (settingOf o) := fun o hmem => hsafe _ (by rw [← hopts]; exact List.mem_map.2 ⟨o, hmem, rfl⟩)
    have hk : Masks ns.length l.optimizers := by
      have := hmask
      unfold Layer.Masked at this
      rw [hb] at this
      simpa [Body.weights] using this
    obtain ⟨n1, q1, gs, a1, a2, a3, a4, a5, a6, a7⟩ := hooks_sym l.optimizers (k := ns.length) (n := n) (q := q) (fs := ns.map (symNeuron fs)) hset hd hk (by simp) hq
      (by intro f hf'; obtain ⟨nn, _, rfl⟩ := List.mem_map.1 hf'; exact symNeuron_ma hf nn)
    rw [a7] at h4
    cases h4
    obtain ⟨n2, q2, gs2, b1, b2, b3, b4⟩ := ih (fun m hm => hlin m (by simp [hm])) (fun l hl => hsound l (by simp [hl])) a2 a5 h2
    refine ⟨n2, q2, gs2, b1, b2, b3, fun d => ?_⟩
    obtain ⟨ns3, e3⟩ := run (keepBits q d)
    obtain ⟨os', e4⟩ := a6 d
    obtain ⟨ls'', d', e5⟩ := b4 d
    refine ⟨({ l with body := .fullyConnected ns3, optimizers := os' } : Layer ℝ) :: ls'', d', ?_⟩
    have e6 : l.body.computeOutput (vals fs (keepBits q d)) true = .ok (vals (ns.map (symNeuron fs)) (keepBits q d), .fullyConnected ns3) := by
      rw [hb]
      exact Res.bind_eq_ok.2 ⟨(_, _), e3, rfl⟩
    unfold trainingLoop Layer.outputForTraining
    exact Res.bind_eq_ok.2 ⟨(_, _, _), Res.bind_eq_ok.2 ⟨(_, _), e6, Res.bind_eq_ok.2 ⟨(_, _, _), e4, rfl⟩⟩, Res.bind_eq_ok.2 ⟨(_, _, _), e5, rfl⟩⟩

theorem netIs_split {opt : Sgd ℝ} : ∀ {pre post : List (LayerModel ℝ)} {sh : List Nat} {ls : List (Layer ℝ)}, NetIs opt (pre ++ post) sh ls →
    ∃ ls1 ls2 sh1, ls = ls1 ++ ls2 ∧ NetIs opt pre sh ls1 ∧ NetIs opt post sh1 ls2
  | [], post, sh, ls, h => ⟨[], ls, sh, rfl, .nil, h⟩
  | p :: pre, post, sh, ls, h => by
    rw [List.cons_append] at h
    cases h with
    | cons hm hl ho hs =>
      obtain ⟨ls1, ls2, sh1, rfl, h1, h2⟩ := netIs_split hs
      exact ⟨_ :: ls1, ls2, sh1, rfl, .cons hm hl ho h1, h2⟩

theorem outputLoop_append {t : Bool} : ∀ {ls1 ls2 ls' : List (Layer ℝ)} {x y : List ℝ}, outputLoop t (ls1 ++ ls2) x = .ok (y, ls') →
    ∃ z ls1' ls2', outputLoop t ls1 x = .ok (z, ls1') ∧ outputLoop t ls2 z = .ok (y, ls2')
  | [], ls2, ls', x, y, h => ⟨x, [], ls', rfl, h⟩
  | l :: ls1, ls2, ls', x, y, h => by
    rw [List.cons_append] at h
    unfold outputLoop at h
    obtain ⟨⟨y1, l1⟩, h1, h⟩ := Res.bind_eq_ok.1 h
    obtain ⟨⟨y2, ls3⟩, h2, h⟩ := Res.bind_eq_ok.1 h
    cases h
    obtain ⟨z, a, b, h3, h4⟩ := outputLoop_append h2
    refine ⟨z, l1 :: a, b, ?_, h4⟩
    unfold outputLoop
    simp only [h1, Res.ok_bind, h3]
    rfl

theorem trainingLoop_append {t : Bool} : ∀ {ls1 ls2 ls1' ls2' : List (Layer ℝ)} {x y z : List ℝ} {d d1 d2 : Draws ℝ}, trainingLoop t ls1 x d = .ok (z, ls1', d1) →
    trainingLoop t ls2 z d1 = .ok (y, ls2', d2) → trainingLoop t (ls1 ++ ls2) x d = .ok (y, ls1' ++ ls2', d2)
  | [], ls2, ls1', ls2', x, y, z, d, d1, d2, h, h' => by cases h; exact h'
  | l :: ls1, ls2, ls1', ls2', x, y, z, d, d1, d2, h, h' => by
    unfold trainingLoop at h
    obtain ⟨⟨y1, l1, e1⟩, h1, h⟩ := Res.bind_eq_ok.1 h
    obtain ⟨⟨y2, ls3, e2⟩, h2, h⟩ := Res.bind_eq_ok.1 h
    cases h
    have := trainingLoop_append h2 h'
    rw [List.cons_append]
    unfold trainingLoop
    simp only [h1, Res.ok_bind, this]
    rfl

/-- As many outputs as neurons in a layer of neurons. -/
theorem dense_length {opt : Sgd ℝ} {m : LayerModel ℝ} {opts : List (LayerOptModel ℝ)} (hm : Dense m opts) {s : List Nat} {l : Layer ℝ} (hl : LayerIs opt m s l) {x a : List ℝ} {b : Body ℝ}
    (h : l.body.computeOutput x true = .ok (a, b)) : a.length = l.body.weights.length ∧ l.optimizers.map settingOf = opts := by
  rcases hm with ⟨n, act, rfl⟩ | ⟨n, act, rfl⟩ | ⟨n, rfl⟩
  · obtain ⟨_, ho, ns, hb, _⟩ := hl
    rw [hb] at h ⊢
    simp only [Body.computeOutput] at h
    obtain ⟨⟨os, ns1⟩, h6, h⟩ := Res.bind_eq_ok.1 h
    cases h
    exact ⟨by simpa [Body.weights] using (runNeurons_out h6).1, ho⟩
  · obtain ⟨_, ho, ns, hb, _⟩ := hl
    rw [hb] at h ⊢
    simp only [Body.computeOutput] at h
    obtain ⟨⟨os, ns1⟩, h6, h⟩ := Res.bind_eq_ok.1 h
    cases h
    exact ⟨by simpa [Body.weights] using (runNeurons_out h6).1, ho⟩
  · obtain ⟨_, ho, ns, hb, _⟩ := hl
    rw [hb] at h ⊢
    simp only [Body.computeOutput] at h
    obtain ⟨⟨os, ns1⟩, h6, h⟩ := Res.bind_eq_ok.1 h
    cases h
    exact ⟨by simpa [Body.weights] using (runNeurons_out h6).1, ho⟩

variable [FText ℝ]

/-- **C94** (exact real arithmetic): take a network a program can hold whose layers are: any layers without dropout, then a layer of neurons with any activation, then any number of linear
layers; the last two groups with any optimizers but Softmax, in particular any number of dropouts whose rates are probabilities. On every input, when the draws of the generator are independent and
uniform, the mean of what a pass of training answers is what `computeOutput` answers.
What is missing with respect to C94: convolution layers, see `C94_convolution_refuted`. -/
theorem C94_mean_partial {arch before after : List (LayerModel ℝ)} {m : LayerModel ℝ} {opts : List (LayerOptModel ℝ)} {sh sh' : List Nat} (hw : WellFormed arch sh sh') {s : Snn ℝ} (h : Reach arch s)
    (harch : arch.tail = before ++ m :: after) (hb : NoDropout before) (hm : Dense m opts) (ho : ∀ o ∈ opts, MeanSafe o)
    (ha : ∀ m ∈ after, ∃ opts, Linear m opts ∧ ∀ o ∈ opts, MeanSafe o)
    {x y : List ℝ} {s' : Snn ℝ} (hc : s.computeOutput x true = .ok (y, s')) :
    (∀ d, ∃ z, trainingAnswer s x d = some z ∧ z.length = y.length) ∧
    ∀ i, Integrable (trainingOutput s x i) drawsLaw ∧ mean (trainingOutput s x i) = y.getD i 0 := by
  have hi := StructProps.C68_structure hw h
  have hd := h.dropped hw
  have hk := h.masked hw
  unfold Snn.computeOutput at hc
  obtain ⟨⟨o, nn⟩, h1, hc⟩ := Res.bind_eq_ok.1 hc
  cases hc
  unfold Net.output at h1
  split at h1
  · cases h1
  rename_i hne
  obtain ⟨⟨o, lls⟩, h2, h1⟩ := Res.bind_eq_ok.1 h1
  cases h1
  rw [harch] at hi
  obtain ⟨ls1, ls2, sh1, e, hi1, hi2⟩ := netIs_split hi
  cases hi2 with
  | @cons _ _ _ s2 l ls hfit hl hout hs =>
  rw [e] at h2
  obtain ⟨z, ls1', ls2', h3, h4⟩ := outputLoop_append h2
  have hplain : ∀ l ∈ ls1, ∀ o ∈ l.optimizers, ∀ a b c, o ≠ .dropout a b c := by
    refine PerfectProps.opts_all (Q := fun o => ∀ v, o ≠ .dropout v) ?_ hi1 hb
    intro o ho a b c e
    rw [e] at ho
    exact ho a rfl
  have t1 := fun d => PerfectProps.trainingLoop_plain true d hplain h3
  unfold outputLoop at h4
  obtain ⟨⟨y1, l1⟩, h5, h4⟩ := Res.bind_eq_ok.1 h4
  obtain ⟨⟨y2, ls3⟩, h6, h4⟩ := Res.bind_eq_ok.1 h4
  cases h4
  unfold Layer.output at h5
  obtain ⟨⟨a, b⟩, h7, h5⟩ := Res.bind_eq_ok.1 h5
  obtain ⟨a', h8, h5⟩ := Res.bind_eq_ok.1 h5
  cases h5
  obtain ⟨hlen, hopts⟩ := dense_length hm hl h7
  have hset : ∀ o ∈ l.optimizers, MeanSafe (settingOf o) := fun o hmem => ho _ (by rw [← hopts]; exact List.mem_map.2 ⟨o, hmem, rfl⟩)
  have hval : ∀ c, vals (a.map fun v => fun _ => v) c = a := by simp [vals, Function.comp_def]
  obtain ⟨n1, q1, gs, a1, a2, a3, a4, a5, a6, a7⟩ := hooks_sym l.optimizers (k := l.body.weights.length) (n := 0) (q := fun _ => 0) (fs := a.map fun v => fun _ => v) hset
    (hd l (by rw [e]; simp)) (hk l (by rw [e]; simp)) (by simp [hlen]) (fun _ => by simp) (by intro f hf; obtain ⟨v, _, rfl⟩ := List.mem_map.1 hf; exact MA.const 0 v)
  rw [hval, h8] at a7
  cases a7
  obtain ⟨n2, q2, gs2, b1, b2, b3, b4⟩ := loop_sym hs ha (fun l hl => ⟨hd l (by rw [e]; simp [hl]), hk l (by rw [e]; simp [hl])⟩) a2 a5 h6
  have key : ∀ d, trainingAnswer s x d = some (vals gs2 (keepBits q2 d)) := by
    intro d
    obtain ⟨os', e4⟩ := a6 d
    obtain ⟨ls'', d', e5⟩ := b4 d
    have e6 : trainingLoop true (l :: ls) z d = .ok (vals gs2 (keepBits q2 d), ({ l with body := b, optimizers := os' } : Layer ℝ) :: ls'', d') := by
      unfold trainingLoop Layer.outputForTraining
      rw [hval] at e4
      have e7 : shiftDraws 0 d = d := by funext i; simp [shiftDraws]
      rw [e7] at e4
      exact Res.bind_eq_ok.2 ⟨(_, _, _), Res.bind_eq_ok.2 ⟨(_, _), h7, Res.bind_eq_ok.2 ⟨(_, _, _), e4, rfl⟩⟩, Res.bind_eq_ok.2 ⟨(_, _, _), e5, rfl⟩⟩
    have e8 := trainingLoop_append (t1 d) e6
    unfold trainingAnswer Net.outputForTraining
    rw [if_neg hne, e, e8]
    rfl
  refine ⟨fun d => ⟨_, key d, by rw [b3]; simp [vals]⟩, fun i => ?_⟩
  have hout' : trainingOutput s x i = fun d => (gs2.getD i (fun _ => 0)) (keepBits q2 d) := by
    funext d
    unfold trainingOutput
    rw [key d]
    simp only [Option.getD_some, vals, List.getD_eq_getElem?_getD, List.getElem?_map]
    cases gs2[i]? <;> rfl
  have hma : MA n2 (gs2.getD i fun _ => 0) := by
    rw [List.getD_eq_getElem?_getD]
    cases hg : gs2[i]? with
    | none => exact MA.const n2 0
    | some g => exact b2 g (List.mem_of_getElem? hg)
  rw [hout']
  refine ⟨hma.integrable q2, ?_⟩
  rw [hma.mean (fun k => (b1 k).1) (fun k => (b1 k).2), b3]
  simp only [vals, List.getD_eq_getElem?_getD, List.getElem?_map]
  cases gs2[i]? <;> rfl

/-! ### Convolution -/

/-- **C94 is false of convolution layers**, every case: take a network that ends in a convolution of f filters with a dropout of rate p, without dropout before. An output at a position from f on
is never dropped in training, so that its mean is not what `computeOutput` answers, unless that is 0 or the rate is 0: `computeOutput` answers the mean times 1 - p. -/
theorem C94_convolution_refuted {arch before : List (LayerModel ℝ)} {f k : Int} {act : Act} {p : ℝ} {sh sh' : List Nat} (hw : WellFormed arch sh sh') {s : Snn ℝ} (h : Reach arch s)
    (harch : arch.tail = before ++ [.convolution f k act [.dropout p]]) (hb : NoDropout before) {x y : List ℝ} {s' : Snn ℝ} (hc : s.computeOutput x true = .ok (y, s')) {i : Nat} (hi : f ≤ i) :
    y.getD i 0 = mean (trainingOutput s x i) * (1 - p) ∧ (p ≠ 0 → y.getD i 0 ≠ 0 → mean (trainingOutput s x i) ≠ y.getD i 0) := by
  have hn := StructProps.C68_structure hw h
  have hd := h.dropped hw
  have hk := h.masked hw
  unfold Snn.computeOutput at hc
  obtain ⟨⟨o, nn⟩, h1, hc⟩ := Res.bind_eq_ok.1 hc
  cases hc
  unfold Net.output at h1
  split at h1
  · cases h1
  rename_i hne
  obtain ⟨⟨o, lls⟩, h2, h1⟩ := Res.bind_eq_ok.1 h1
  cases h1
  rw [harch] at hn
  obtain ⟨ls1, ls2, sh1, e, hi1, hi2⟩ := netIs_split hn
  cases hi2 with
  | @cons _ _ _ s2 l ls hfit hl hout hs =>
  cases hs
  rw [e] at h2
  obtain ⟨z, ls1', ls2', h3, h4⟩ := outputLoop_append h2
  have hplain : ∀ l ∈ ls1, ∀ o ∈ l.optimizers, ∀ a b c, o ≠ .dropout a b c := by
    refine PerfectProps.opts_all (Q := fun o => ∀ v, o ≠ .dropout v) ?_ hi1 hb
    intro o ho a b c e
    rw [e] at ho
    exact ho a rfl
  have t1 := fun d => PerfectProps.trainingLoop_plain true d hplain h3
  unfold outputLoop at h4
  obtain ⟨⟨y1, l1⟩, h5, h4⟩ := Res.bind_eq_ok.1 h4
  obtain ⟨⟨y2, ls3⟩, h6, h4⟩ := Res.bind_eq_ok.1 h4
  cases h4
  cases h6
  unfold Layer.output at h5
  obtain ⟨⟨a, b⟩, h7, h5⟩ := Res.bind_eq_ok.1 h5
  obtain ⟨a', h8, h5⟩ := Res.bind_eq_ok.1 h5
  cases h5
  obtain ⟨_, hopts, kind, ns, info, hbody, _, _, _, _, hlen, _⟩ := hl
  obtain ⟨rv, mask, ho⟩ : ∃ rv mask, l.optimizers = [.dropout p rv mask] := by
    match hl : l.optimizers, hopts with
    | [.dropout v rv mask], hopts =>
      simp [settingOf] at hopts
      exact ⟨rv, mask, by rw [hopts]⟩
    | [.l1 _], hopts => simp [settingOf] at hopts
    | [.l2 _], hopts => simp [settingOf] at hopts
    | [.errorMultiplier _], hopts => simp [settingOf] at hopts
    | [.softmax], hopts => simp [settingOf] at hopts
    | [], hopts => simp at hopts
    | _ :: _ :: _, hopts => simp at hopts
  have hr : rv = 1 - p := by simpa [Dropped] using hd l (by rw [e]; simp) (.dropout p rv mask) (by rw [ho]; simp)
  have hmask : mask.length = ns.length := by
    have := hk l (by rw [e]; simp) p rv mask (by rw [ho]; simp)
    rw [hbody] at this
    simpa [Body.weights] using this
  rw [ho] at h8
  cases h8
  have key : ∀ d, trainingAnswer s x d = some (applyMask a (generateMask p mask.length d)) := by
    intro d
    have e6 : trainingLoop true [l] z d = .ok (applyMask a (generateMask p mask.length d), [{ l with body := b, optimizers := [.dropout p rv (generateMask p mask.length d)] }], shiftDraws mask.length d) := by
      unfold trainingLoop Layer.outputForTraining
      rw [ho]
      exact Res.bind_eq_ok.2 ⟨(_, _, _), Res.bind_eq_ok.2 ⟨(_, _), h7, Res.bind_eq_ok.2 ⟨(_, _, _), rfl, rfl⟩⟩, Res.bind_eq_ok.2 ⟨(_, _, _), rfl, rfl⟩⟩
    have e8 := trainingLoop_append (t1 d) e6
    unfold trainingAnswer Net.outputForTraining
    rw [if_neg hne, e, e8]
    rfl
  have hout' : trainingOutput s x i = fun _ => a.getD i 0 := by
    funext d
    unfold trainingOutput
    rw [key d]
    simp only [Option.getD_some, List.getD_eq_getElem?_getD]
    cases hx : a[i]? with
    | none => rw [List.getElem?_eq_none_iff.2 (by rw [LayerOptProps.applyMask_length]; exact List.getElem?_eq_none_iff.1 hx)]
    | some v => rw [LayerOptProps.applyMask_get _ _ _ _ hx, List.getElem?_eq_none_iff.2 (by simp [generateMask]; omega)]
  have hm : mean (trainingOutput s x i) = a.getD i 0 := by
    rw [hout']
    simp [mean]
  have hy : (a.map fun v => v * rv).getD i 0 = a.getD i 0 * (1 - p) := by
    simp only [List.getD_eq_getElem?_getD, List.getElem?_map, hr]
    cases a[i]? <;> simp
  rw [hm, hy]
  refine ⟨rfl, fun hp hz hcon => ?_⟩
  have : a.getD i 0 ≠ 0 := fun h0 => hz (by rw [h0]; simp)
  have h9 : a.getD i 0 * p = 0 := by linarith
  rcases mul_eq_zero.1 h9 with h0 | h0
  · exact this h0
  · exact hp h0

omit [FText ℝ] in
/-- **C94**, the law of a dropout: whatever happened to the optimizer, the outputs of a training pass that starts a new sequence lose exactly the positions of S with probability
p^|S| (1 - p)^(n - |S|): each one is lost with probability p, independently of the others. -/
theorem C94_law {n : Nat} {p : ℝ} {o : LayerOpt ℝ} (h : LayerOptProps.DropoutReach n p o) (h0 : 0 ≤ p) (h1 : p ≤ 1) (xs : List ℝ) (hl : xs.length = n) (hx : ∀ v ∈ xs, v ≠ 0)
    (S : Finset ℕ) (hS : ∀ i ∈ S, i < n) :
    probability {d | ∃ ys o' d', o.afterOutputForTraining xs true d = .ok (ys, o', d') ∧ ys.length = n ∧ ∀ i < n, (ys.getD i 0 = 0 ↔ i ∈ S) ∧ (i ∉ S → ys.getD i 0 = xs.getD i 0)} =
      p ^ S.card * (1 - p) ^ (n - S.card) := by
  have e : {d | ∃ ys o' d', o.afterOutputForTraining xs true d = .ok (ys, o', d') ∧ ys.length = n ∧ ∀ i < n, (ys.getD i 0 = 0 ↔ i ∈ S) ∧ (i ∉ S → ys.getD i 0 = xs.getD i 0)} =
      {d | ∀ i ∈ Finset.range n, d i ∈ (if i ∈ S then {u : ℝ | u < p} else {u : ℝ | p ≤ u})} := by
    ext d
    obtain ⟨drop, ys, o', d', e1, e2, _, _, _, e3⟩ := LayerOptProps.C46_dropout_partial h xs true d
    have hget : ∀ i < n, (drop i → ys.getD i 0 = 0) ∧ (¬ drop i → ys.getD i 0 = xs.getD i 0) ∧ xs.getD i 0 ≠ 0 := by
      intro i hi
      obtain ⟨h4, h5⟩ := e2.2 i xs[i] (List.getElem?_eq_getElem (by omega))
      refine ⟨fun hd => ?_, fun hd => ?_, ?_⟩
      · rw [List.getD_eq_getElem?_getD, h4 hd]; rfl
      · rw [List.getD_eq_getElem?_getD, h5 hd, List.getD_eq_getElem?_getD, List.getElem?_eq_getElem (by omega)]
      · rw [List.getD_eq_getElem?_getD, List.getElem?_eq_getElem (by omega)]
        exact hx _ (List.getElem_mem _)
    simp only [Set.mem_setOf_eq, Finset.mem_range]
    constructor
    · rintro ⟨zs, o2, d2, f1, _, f2⟩ i hi
      rw [e1] at f1
      cases f1
      obtain ⟨g1, g2, g3⟩ := hget i hi
      by_cases hiS : i ∈ S
      · rw [if_pos hiS]
        by_contra hc
        have := g2 (fun hd => hc ((e3 rfl i hi).1 hd))
        rw [(f2 i hi).1.2 hiS] at this
        exact g3 this.symm
      · rw [if_neg hiS]
        by_contra hc
        exact hiS ((f2 i hi).1.1 (g1 ((e3 rfl i hi).2 (not_le.1 hc))))
    · intro hd
      refine ⟨ys, o', d', e1, by rw [e2.1, hl], fun i hi => ?_⟩
      obtain ⟨g1, g2, g3⟩ := hget i hi
      have := hd i hi
      by_cases hiS : i ∈ S
      · rw [if_pos hiS] at this
        exact ⟨⟨fun _ => hiS, fun _ => g1 ((e3 rfl i hi).2 this)⟩, fun hc => absurd hiS hc⟩
      · rw [if_neg hiS] at this
        have hnd : ¬ drop i := fun hd => not_le.2 ((e3 rfl i hi).1 hd) this
        exact ⟨⟨fun hz => absurd ((g2 hnd).symm.trans hz) g3, fun hc => absurd hc hiS⟩, fun _ => g2 hnd⟩
  unfold probability
  rw [e, draws_independent (Finset.range n) (fun i => if i ∈ S then {u : ℝ | u < p} else {u : ℝ | p ≤ u})
    (fun i _ => by split <;> [exact measurableSet_Iio; exact measurableSet_Ici])]
  have e2 : ∀ i ∈ Finset.range n, uniform01 (if i ∈ S then {u : ℝ | u < p} else {u : ℝ | p ≤ u}) = if i ∈ S then ENNReal.ofReal p else ENNReal.ofReal (1 - p) := by
    intro i _
    split
    · exact uniform01_lt h0 h1
    · exact uniform01_ge h0 h1
  have hsub : S ⊆ Finset.range n := fun i hi => Finset.mem_range.2 (hS i hi)
  rw [Finset.prod_congr rfl e2, Finset.prod_ite, Finset.prod_const, Finset.prod_const, ENNReal.toReal_mul, ENNReal.toReal_pow, ENNReal.toReal_pow, ENNReal.toReal_ofReal h0,
    ENNReal.toReal_ofReal (by linarith)]
  have c1 : (Finset.range n).filter (fun i => i ∈ S) = S := by
    ext i; simp only [Finset.mem_filter, Finset.mem_range]; exact ⟨fun h => h.2, fun h => ⟨hS i h, h⟩⟩
  have c2 : (Finset.range n).filter (fun i => i ∉ S) = Finset.range n \ S := by
    ext i; simp
  rw [c1, c2, Finset.card_sdiff_of_subset hsub, Finset.card_range]

/-! ### The hypotheses are met -/

/-- A network with dropout in its three layers, the first one with tanh, the others linear. -/
noncomputable def thin : List (LayerModel ℝ) := [.input [2], .recurrence 2 .tanh [], .fullyConnected 3 .tanh [.dropout (1/2), .l2 (1/10)], .fullyConnected 2 .identity [.dropout (1/4), .dropout (1/3)], .fullyConnected 1 .identity []]

theorem thin_wf : WellFormed thin [2] [1] :=
  ⟨⟨_, _, rfl, .cons ⟨by simp, by simp, by simp⟩ (.recurrence (n := 2) (by omega)) (.cons ⟨by simp, by simp, by simp⟩ (.fullyConnected (n := 3) (by omega))
    (.cons ⟨by simp, by simp, by simp⟩ (.fullyConnected (n := 2) (by omega)) (.cons ⟨by simp, by simp, by simp⟩ (.fullyConnected (n := 1) (by omega)) (.nil ⟨by simp, by simp, by simp⟩))))⟩, by simp [thin]⟩

/-- Such a network exists and answers, and the theorem applies to it. -/
example : ∃ (s s' : Snn ℝ) (y : List ℝ), Reach thin s ∧ s.computeOutput [3, -5] true = .ok (y, s') ∧ y.length = 1 ∧ mean (trainingOutput s [3, -5] 0) = y.getD 0 0 := by
  obtain ⟨s, d', h⟩ := ArchProps.C49_accepted_if thin_wf (opt := { learningRate := 1/10, momentum := 1/2 }) (by norm_num) (by norm_num) (by norm_num)
    (by norm_num) (d := fun _ => 1/3) (by intro i; norm_num)
  obtain ⟨hn, hi⟩ := SafeProps.make_safe thin_wf (by simp [EndsWithNeurons, thin]) h
  obtain ⟨y, net, h1, h2, h3, h4⟩ := Net.output_ok hn.wf [3, -5] rfl true
  have hc : s.computeOutput [3, -5] true = .ok (y, { s with net := net }) := by simp [Snn.computeOutput, h1]
  refine ⟨s, _, y, .make h, hc, by simpa using h2, ?_⟩
  refine ((C94_mean_partial thin_wf (.make h) (before := [.recurrence 2 .tanh []]) (m := .fullyConnected 3 .tanh [.dropout (1/2), .l2 (1/10)]) (opts := [.dropout (1/2), .l2 (1/10)])
    (after := [.fullyConnected 2 .identity [.dropout (1/4), .dropout (1/3)], .fullyConnected 1 .identity []]) rfl ?_ (.inl ⟨_, _, rfl⟩) ?_ ?_ hc).2 0).2
  · intro m hm o ho
    simp only [List.mem_singleton] at hm
    subst hm
    simp [optimizersOf] at ho
  · intro o ho
    simp only [List.mem_cons, List.not_mem_nil, or_false] at ho
    rcases ho with rfl | rfl
    · constructor <;> norm_num
    · trivial
  · intro m hm
    simp only [List.mem_cons, List.not_mem_nil, or_false] at hm
    rcases hm with rfl | rfl
    · refine ⟨_, ⟨_, rfl⟩, ?_⟩
      intro o ho
      simp only [List.mem_cons, List.not_mem_nil, or_false] at ho
      rcases ho with rfl | rfl <;> constructor <;> norm_num
    · exact ⟨_, ⟨_, rfl⟩, by simp⟩

omit [FText ℝ] in
/-- The law of a dropout of rate 1/4 on three outputs: exactly the second one is lost with probability 1/4 · (3/4)². -/
example : probability {d | ∃ ys o' d', (LayerOpt.build 3 (.dropout (1/4 : ℝ)) (fun _ => 0)).1.afterOutputForTraining [5, 6, 7] true d = .ok (ys, o', d') ∧ ys.length = 3 ∧
    ∀ i < 3, (ys.getD i 0 = 0 ↔ i ∈ ({1} : Finset ℕ)) ∧ (i ∉ ({1} : Finset ℕ) → ys.getD i 0 = ([5, 6, 7] : List ℝ).getD i 0)} = 9 / 64 := by
  refine (C94_law (n := 3) (p := 1/4) (.build _) (by norm_num) (by norm_num) [5, 6, 7] rfl (by simp) {1} (by simp)).trans ?_
  norm_num

/-- One filter that reads one of two positions. -/
noncomputable def slide : List (LayerModel ℝ) := [.input [2], .convolution 1 1 .sigmoid [.dropout (1/2)]]

theorem slide_wf : WellFormed slide [2] [1, 2] :=
  ⟨⟨_, _, rfl, .cons ⟨by simp, by simp, by simp⟩ (.convolution1 (f := 1) (k := 1) (x := 2) (by omega) (by omega) (by omega)) (.nil ⟨by simp, by simp, by simp⟩)⟩, by simp [slide]⟩

theorem slide_layer {s : Snn ℝ} {d d' : Draws ℝ} {opt : Sgd ℝ} (h : Snn.make slide opt d = .ok (s, d')) :
    ∃ l d3, s.net.layers = [l] ∧ buildLayer opt (.convolution ((1 : Nat) : Int) ((1 : Nat) : Int) .sigmoid [.dropout (1/2)]) [((2 : Nat) : Int)] d = .ok (l, d3) := by
  obtain ⟨⟨net, d1⟩, h1, hm⟩ := Res.bind_eq_ok.1 h
  obtain ⟨err, h2, hm⟩ := Res.bind_eq_ok.1 hm
  split at hm
  · cases hm
  cases hm
  obtain ⟨⟨ls, d2⟩, h3, h1⟩ := Res.bind_eq_ok.1 h1
  obtain ⟨last, h4, h1⟩ := Res.bind_eq_ok.1 h1
  cases h1
  unfold LayerFactory.build slide at h3
  rw [if_neg (by simp)] at h3
  simp only at h3
  rw [if_neg (by simp)] at h3
  obtain ⟨_, _, h3⟩ := Res.bind_eq_ok.1 h3
  split at h3
  · cases h3
  unfold buildLayers at h3
  obtain ⟨⟨l, d4⟩, h5, h3⟩ := Res.bind_eq_ok.1 h3
  obtain ⟨⟨ls', d5⟩, h6, h3⟩ := Res.bind_eq_ok.1 h3
  cases h3
  cases h6
  exact ⟨l, _, rfl, h5⟩

/-- The refutation is not empty: the second output of this network is not 0, and its mean in training is twice what `computeOutput` answers. -/
theorem C94_witness_refuted : ∃ (s s' : Snn ℝ) (y : List ℝ), Reach slide s ∧ s.computeOutput [3, -5] true = .ok (y, s') ∧ mean (trainingOutput s [3, -5] 1) ≠ y.getD 1 0 := by
  obtain ⟨s, d', h⟩ := ArchProps.C49_accepted_if slide_wf (opt := { learningRate := 1/10, momentum := 1/2 }) (by norm_num) (by norm_num) (by norm_num)
    (by norm_num) (d := fun _ => 1/3) (by intro i; norm_num)
  have hreach : Reach slide s := .make h
  have hdr := hreach.dropped slide_wf
  have hst := StructProps.C68_structure slide_wf hreach
  obtain ⟨l, d3, hls, hbl⟩ := slide_layer h
  obtain ⟨l', ho, _⟩ := LayerProps.C36_convolution1D (C := 1) (X := 2) (K := 1) (N := 1) (.positions 2) (by norm_num) hbl .new [3, -5] rfl true
  rw [hls] at hst
  have hopts : l.optimizers.map settingOf = [.dropout (1/2)] := by
    cases hst with
    | cons a b c d => exact b.2.1
  obtain ⟨rv, mask, hop⟩ : ∃ rv mask, l.optimizers = [.dropout (1/2) rv mask] := by
    match hl : l.optimizers, hopts with
    | [.dropout v rv mask], hopts =>
      simp [settingOf] at hopts
      exact ⟨rv, mask, by rw [hopts]; simp⟩
    | [.l1 _], hopts => simp [settingOf] at hopts
    | [.l2 _], hopts => simp [settingOf] at hopts
    | [.errorMultiplier _], hopts => simp [settingOf] at hopts
    | [.softmax], hopts => simp [settingOf] at hopts
    | [], hopts => simp at hopts
    | _ :: _ :: _, hopts => simp at hopts
  have hr : rv = 1 / 2 := by
    have : rv = lit 1 - 1 / 2 := hdr l (by rw [hls]; simp) (.dropout (1/2) rv mask) (by rw [hop]; simp)
    rw [this]; norm_num
  rw [hop] at ho
  have ho2 : l.output [3, -5] true = .ok ((conv1D Act.sigmoid.obj.function (1/1000) l.body.weights [3, -5] 1 2 1 1).map (fun v => v * rv), l') := ho
  have hc : ∃ s', s.computeOutput [3, -5] true = .ok ((conv1D Act.sigmoid.obj.function (1/1000) l.body.weights [3, -5] 1 2 1 1).map (fun v => v * rv), s') := by
    unfold Snn.computeOutput Net.output
    rw [hls]
    unfold outputLoop
    simp only [ho2, Res.ok_bind]
    exact ⟨_, rfl⟩
  obtain ⟨s', hc⟩ := hc
  refine ⟨s, s', _, hreach, hc, ?_⟩
  refine (C94_convolution_refuted slide_wf hreach (before := []) (f := 1) rfl (by intro m hm; cases hm) hc (i := 1) (by simp)).2 (by norm_num) ?_
  simp only [conv1D, hr, List.range_succ, List.range_zero]
  simp
  have hpos : ∀ v, Act.sigmoid.obj.function v ≠ (0 : ℝ) := by
    intro v
    show ActObj.Sigmoid.function v ≠ 0
    rw [(ActivationSpec.C44_functions v).1]
    have := Real.exp_pos (-v)
    positivity
  exact hpos _

end Snn.ChanceProps
