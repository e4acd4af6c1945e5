import Verif.Proofs.BoundedProofs
import Verif.Proofs.RangeProofs

/-! Magnitudes in single precision: neurons. -/

set_option linter.all false

namespace Snn.Bounded

open B32 Spec FloatProps

section
variable [FTrans B32]

theorem sgd_within {c D W lx : ℤ} {g : Nat} (hg : c + g ≤ D) (h0 : -90 ≤ c) (hDW : D ≤ W - 24) (hW : W ≤ 127) {le m : B32} {E : ℤ} (hle : Within (2 ^ E) le)
    (hE : E + lx ≤ c) (hm1 : Within 1 m) (hm : g = 24 ∨ g < 24 ∧ Within (1 - 2 ^ (-g : ℤ)) m) : ∀ {k : Nat} {xs ps ws ds vs : List B32},
    AllWithin (2 ^ lx) xs → AllWithin (2 ^ D) ps → AllWithin (2 ^ W) ws → sgdLoop le m k xs ps ws = .ok (ds, vs) → AllWithin (2 ^ D) ds ∧ AllWithin (2 ^ W) vs
  | 0, xs, ps, ws, ds, vs, _, _, _, h => by
    cases h
    exact ⟨fun v (hv : v ∈ []) => absurd hv (by simp), fun v (hv : v ∈ []) => absurd hv (by simp)⟩
  | k + 1, [], ps, ws, ds, vs, _, _, _, h => by cases h
  | k + 1, x :: xs, [], ws, ds, vs, _, _, _, h => by cases h
  | k + 1, x :: xs, p :: ps, [], ds, vs, _, _, _, h => by cases h
  | k + 1, x :: xs, p :: ps, w :: ws, ds, vs, hx, hp, hw, h => by
    rw [sgdLoop] at h
    obtain ⟨⟨d1, v1⟩, h2, h⟩ := Res.bind_eq_ok.1 h
    cases h
    obtain ⟨i1, i2⟩ := sgd_within hg h0 hDW hW hle hE hm1 hm (fun v hv => hx v (by simp [hv])) (fun v hv => hp v (by simp [hv])) (fun v hv => hw v (by simp [hv])) h2
    have hd : Within (2 ^ D) (le * x + m * p) :=
      delta_within hg h0 (by omega) (hle.mulPow (hx x (by simp)) hE (by omega) (by omega)) hm1 hm (hp p (by simp))
    constructor
    · intro v hv
      rcases List.mem_cons.1 hv with rfl | hv
      · exact hd
      · exact i1 v hv
    · intro v hv
      rcases List.mem_cons.1 hv with rfl | hv
      · exact (hw w (by simp)).absorb (by omega) hW (hd.mono (pow_le hDW))
      · exact i2 v hv

theorem getBack_mem {c c' : Circ B32} {v : List B32} (h : c.getBack = .ok (v, c')) : v ∈ c.queue ∧ c'.queue = c.queue := by
  unfold Circ.getBack at h
  simp only at h
  obtain ⟨v', h1, h⟩ := Res.bind_eq_ok.1 h
  cases h
  exact ⟨rd_mem h1, rfl⟩

theorem pushBack_mem {c c' : Circ B32} {v : List B32} (h : c.pushBack v = .ok c') {r : List B32} (hr : r ∈ c'.queue) : r ∈ c.queue ∨ r = v := by
  unfold Circ.pushBack at h
  simp only at h
  obtain ⟨q, h1, h⟩ := Res.bind_eq_ok.1 h
  cases h
  obtain ⟨_, rfl⟩ := wr_eq_ok.1 h1
  exact List.mem_or_eq_of_mem_set hr

/-! ### Activations -/

theorem half_not_nan {v : B32} (h : v ≠ nan) : (v / lit 2 : B32) ≠ nan := by
  rw [FloatProofs.lit_two]
  cases v with
  | nan => exact absurd rfl h
  | inf s => show inf _ ≠ nan; simp
  | num q =>
    show (if (2 : ℚ) = 0 then _ else ofRat _) ≠ nan
    rw [if_neg (by norm_num), ofRat_rnd]
    split <;> simp

theorem rep_two : Rep 2 := by have := rep_nat (k := 2) (by norm_num); simpa using this

theorem within_one {v : B32} (hT : TanhLaw) (h : v ≠ nan) : Within 1 (ftanh v : B32) := by
  obtain ⟨t, h1, h2, h3, h4⟩ := hT v h
  exact ⟨t, h1, h2, abs_le.2 ⟨h3, h4⟩⟩

theorem within_div {A B : ℚ} {d : ℚ} (hd : 1 ≤ d) {v : B32} (hv : Within A v) (hAB : A / d ≤ B) (hr : Rep B) (hs : B < 2 ^ 128) : Within B (v / num d) := by
  obtain ⟨a, rfl, _, h⟩ := hv
  show Within B (if d = 0 then _ else ofRat (a / d))
  rw [if_neg (by linarith)]
  refine within_ofRat ?_ hr hs
  rw [abs_div, abs_of_pos (by linarith : 0 < d)]
  exact (div_le_div_of_nonneg_right h (by linarith)).trans hAB

theorem sq_within {v : B32} (h : Within 1 v) : ∃ q, sq v = num q ∧ Rep q ∧ 0 ≤ q ∧ q ≤ 1 := by
  obtain ⟨t, rfl, _, ht⟩ := h
  have hh : |t * t| ≤ 1 := by rw [abs_mul]; exact mul_le_one₀ ht (abs_nonneg _) ht
  refine ⟨rnd (t * t), ?_, rep_rnd _, rnd_nonneg (mul_self_nonneg t), rnd_le (le_of_abs_le hh) rep_one⟩
  show ofRat (t * t) = _
  exact ofRat_num hh rep_one (by norm_num)

theorem one_sub_sq {v : B32} (h : Within 1 v) : Within 1 (lit 1 - sq v) := by
  obtain ⟨q, h1, h2, h3, h4⟩ := sq_within h
  rw [h1, lit_one]
  show Within 1 (ofRat (1 + -q))
  exact within_ofRat (by rw [abs_le]; constructor <;> linarith) rep_one (by norm_num)

theorem act_within (hT : TanhLaw) {a : Act} (ha : a = .sigmoid ∨ a = .tanh) {v y : B32} (hv : v ≠ nan) (h : a.apply v = .ok y) : Within 1 y := by
  rcases ha with rfl | rfl
  · cases h
    show Within 1 ((ftanh (v / lit 2) + lit 1) / lit 2)
    have h1 := within_one hT (half_not_nan hv)
    have h2 : Within 2 (ftanh (v / lit 2) + lit 1 : B32) := h1.add (B := 1) ⟨1, lit_one, rep_one, by norm_num⟩ (by norm_num) rep_two (by norm_num)
    rw [FloatProofs.lit_two] at *
    exact within_div (by norm_num) h2 (by norm_num) rep_one (by norm_num)
  · cases h
    exact within_one hT hv

theorem near_minus_one {t : ℚ} (hr : Rep t) (h : -1 ≤ t) : t = -1 ∨ 2 ^ (-24 : ℤ) ≤ 1 + t := by
  by_contra hc
  push Not at hc
  obtain ⟨h1, h2⟩ := hc
  have hlt : -1 < t := lt_of_le_of_ne h (Ne.symm h1)
  obtain ⟨k, z, hk, hz, rfl⟩ := hr
  have hz24 : -24 ≤ z := by
    by_contra hc
    have h3 : (2 : ℚ) ^ z ≤ 2 ^ (-25 : ℤ) := pow_le (by omega)
    have hk' : (-(2 ^ 24 : ℤ) : ℤ) ≤ k := by have := neg_abs_le k; omega
    have hk2 : (-(2 ^ 24 : ℚ)) ≤ (k : ℚ) := by exact_mod_cast hk'
    have h4 : -(2 ^ 24 : ℚ) * 2 ^ (-25 : ℤ) ≤ (k : ℚ) * 2 ^ z :=
      (mul_le_mul_of_nonpos_left h3 (by norm_num)).trans (mul_le_mul_of_nonneg_right hk2 (pow_pos' z).le)
    have h5 : (2 : ℚ) ^ (-24 : ℤ) ≤ 1 + (k : ℚ) * 2 ^ z := by
      have : -(2 ^ 24 : ℚ) * 2 ^ (-25 : ℤ) = -1 / 2 := by norm_num [zpow_neg]
      rw [this] at h4
      have : (2 : ℚ) ^ (-24 : ℤ) ≤ 1 / 2 := by norm_num [zpow_neg]
      refine this.trans ?_
      linarith
    exact absurd h2 (not_lt.2 h5)
  obtain ⟨n, rfl⟩ : ∃ n : ℕ, z = -24 + n := ⟨(z + 24).toNat, by omega⟩
  have e : (k : ℚ) * 2 ^ ((-24 : ℤ) + n) = ((k * 2 ^ n : ℤ) : ℚ) * 2 ^ (-24 : ℤ) := by
    rw [zpow_add₀ (by norm_num), zpow_natCast]; push_cast; ring
  rw [e] at h2 hlt
  set m : ℤ := k * 2 ^ n
  have e2 : (2 : ℚ) ^ (-24 : ℤ) = 1 / 16777216 := by norm_num [zpow_neg]
  rw [e2] at h2 hlt
  have h6 : (m : ℚ) < -16777215 := by linarith
  have h7 : (-16777216 : ℚ) < m := by linarith
  have h6' : m < -16777215 := by exact_mod_cast h6
  have h7' : -16777216 < m := by exact_mod_cast h7
  omega

/-- The logistic function gives 0 or a value of at least 2^-25. -/
theorem sigmoid_normal (hT : TanhLaw) {v y : B32} (hv : v ≠ nan) (h : Act.apply .sigmoid v = .ok y) : isNormalOrZero y = true := by
  cases h
  obtain ⟨t, h1, h2, h3, h4⟩ := hT _ (half_not_nan hv)
  show isNormalOrZero ((ftanh (v / lit 2) + lit 1) / lit 2 : B32) = true
  rw [h1, lit_one, FloatProofs.lit_two]
  have e1 : (num t + num 1 : B32) = num (rnd (t + 1)) := ofRat_num (y := 2) (by rw [abs_le]; constructor <;> linarith) rep_two (by norm_num)
  have b1 : 0 ≤ rnd (t + 1) := rnd_nonneg (by linarith)
  have b2 : rnd (t + 1) ≤ 2 := rnd_le (by linarith) rep_two
  have e2 : (num (rnd (t + 1)) / num 2 : B32) = num (rnd (rnd (t + 1) / 2)) := by
    show (if (2 : ℚ) = 0 then _ else ofRat _) = _
    rw [if_neg (by norm_num)]
    exact ofRat_num (y := 1) (by rw [abs_le]; constructor <;> linarith) rep_one (by norm_num)
  rw [e1, e2]
  show decide (_ = (0 : ℚ) ∨ _) = true
  rw [decide_eq_true_iff]
  rcases near_minus_one h2 h3 with rfl | hb
  · left; norm_num [rnd_zero]
  · right
    have h5 : (2 : ℚ) ^ (-24 : ℤ) ≤ rnd (t + 1) := le_rnd (by linarith) (rep_pow (by norm_num))
    have h6 : (2 : ℚ) ^ (-25 : ℤ) ≤ rnd (rnd (t + 1) / 2) := by
      refine le_rnd ?_ (rep_pow (by norm_num))
      have : (2 : ℚ) ^ (-24 : ℤ) = 2 ^ (-25 : ℤ) * 2 := by norm_num [zpow_neg]
      rw [this] at h5
      rw [le_div_iff₀ (by norm_num)]
      exact h5
    exact ((pow_le (by norm_num)).trans h6).trans (le_abs_self _)

theorem deriv_within (hT : TanhLaw) {a : Act} (ha : a = .sigmoid ∨ a = .tanh) {v y : B32} (hv : v ≠ nan) (h : a.deriv v = .ok y) : Within 1 y := by
  rcases ha with rfl | rfl
  · cases h
    show Within 1 ((lit 1 - sq (ftanh (v / lit 2))) / lit 4)
    have h1 := one_sub_sq (within_one hT (half_not_nan hv))
    have e : (lit 4 : B32) = num 4 := by have := ofRat_nat (k := 4) (by norm_num); exact_mod_cast this
    rw [e]
    exact within_div (by norm_num) h1 (by norm_num) rep_one (by norm_num)
  · cases h
    exact one_sub_sq (within_one hT hv)

/-! ### Exponents -/

/-- What the proofs need of the ranges for the layer with i layers behind it. -/
structure Room (p : Ranges) (opt : Sgd B32) (i : Nat) : Prop where
  rate : Within (2 ^ (-p.rate : ℤ)) opt.learningRate
  momentum : Within 1 opt.momentum
  damped : p.damping = 24 ∨ p.damping < 24 ∧ Within (1 - 2 ^ (-p.damping : ℤ)) opt.momentum
  slow : p.rate ≤ 22
  room : p.weightExp i + p.input + p.width ≤ 127
  two : 2 ≤ p.errorExp i
  small : p.width ≤ 24

/-- The state of a neuron of the layer with i layers behind it. -/
structure TN (p : Ranges) (opt : Sgd B32) (i : Nat) (a : Act) (n : Neuron B32) : Prop where
  act : n.activationFunction = a
  bias : n.bias = num 1
  batch : n.batchSize = 1
  opt : n.optimizer = opt
  weights : AllWithin (2 ^ p.weightExp i) n.weights
  deltas : ∀ r ∈ n.previousDeltaWeights.queue, AllWithin (2 ^ (p.weightExp i - 24)) r
  last : ∀ r ∈ n.lastInputs.queue, AllWithin (2 ^ (p.input : ℤ)) r
  sum : n.sum ≠ nan

variable {p : Ranges} {opt : Sgd B32} {i : Nat} {a : Act}

theorem neuron_output (hT : TanhLaw) (hr : Room p opt i) (ha : a = .sigmoid ∨ a = .tanh) {n n' : Neuron B32} (hn : TN p opt i a n) {x : List B32} {y : B32}
    (hx : AllWithin (2 ^ (p.input : ℤ)) x) (hl : x.length < 2 ^ p.width) (h : n.output x = .ok (y, n')) :
    (Within 1 y ∧ (a = .sigmoid → isNormalOrZero y = true)) ∧ TN p opt i a n' := by
  unfold Neuron.output at h
  obtain ⟨li, h1, h⟩ := Res.bind_eq_ok.1 h
  obtain ⟨tmp, h2, h⟩ := Res.bind_eq_ok.1 h
  obtain ⟨wb, h3, h⟩ := Res.bind_eq_ok.1 h
  simp only at h
  obtain ⟨out, h4, h⟩ := Res.bind_eq_ok.1 h
  cases h
  have hroom := hr.room
  have htwo := hr.two
  have hslow := hr.slow
  have hW : p.weightExp i = p.errorExp i + p.input - p.rate + p.damping + 24 := rfl
  have hp24 : (2 : ℕ) ^ p.width ≤ 2 ^ 24 := Nat.pow_le_pow_right (by norm_num) hr.small
  set z := p.weightExp i + p.input with hz
  have hbig : ((x.length + 1 : ℕ) : ℚ) * 2 ^ z ≤ 2 ^ (127 : ℤ) := by
    have h5 : ((x.length + 1 : ℕ) : ℚ) ≤ 2 ^ (p.width : ℤ) := by rw [zpow_natCast]; exact_mod_cast (by omega : x.length + 1 ≤ 2 ^ p.width)
    calc ((x.length + 1 : ℕ) : ℚ) * 2 ^ z ≤ 2 ^ (p.width : ℤ) * 2 ^ z := mul_le_mul_of_nonneg_right h5 (pow_pos' z).le
      _ = 2 ^ ((p.width : ℤ) + z) := (zpow_add₀ (by norm_num) _ _).symm
      _ ≤ 2 ^ (127 : ℤ) := pow_le (by omega)
  have hbig' : ((x.length + 1 : ℕ) : ℚ) * 2 ^ z < 2 ^ 128 := lt_of_le_of_lt hbig (pow_lt le_rfl)
  have hle : ((x.length : ℕ) : ℚ) * 2 ^ z ≤ ((x.length + 1 : ℕ) : ℚ) * 2 ^ z := mul_le_mul_of_nonneg_right (by push_cast; linarith) (pow_pos' z).le
  have hd := dot_within (j := 0) (z := z) (by omega) (by omega : (p.input : ℤ) + p.weightExp i ≤ z) hx hn.weights (by omega)
    (by rw [Nat.zero_add]; exact lt_of_le_of_lt hle hbig') (within_zero (by simp)) h2
  rw [Nat.zero_add] at hd
  have hwb := hn.weights wb (rd_mem h3)
  have hb : Within (2 ^ z) (wb * n.bias) := by
    rw [hn.bias]
    refine hwb.mul (B := 1) ⟨1, rfl, rep_one, by norm_num⟩ ?_ (rep_pow (by omega)) (pow_lt (by omega))
    rw [mul_one]; exact pow_le (by omega)
  have hs : Within (((x.length + 1 : ℕ) : ℚ) * 2 ^ z) (tmp + wb * n.bias) :=
    hd.add hb (by push_cast; linarith) (rep_mul_pow (by omega) (by omega)) hbig'
  have hsn : tmp + wb * n.bias ≠ nan := by obtain ⟨q, hq, _⟩ := hs; rw [hq]; simp
  rw [hn.act] at h4
  refine ⟨⟨act_within hT ha hsn h4, fun e => by subst e; exact sigmoid_normal hT hsn h4⟩, ⟨hn.act, hn.bias, hn.batch, hn.opt, hn.weights, hn.deltas, ?_, hsn⟩⟩
  intro r hr
  rcases pushBack_mem h1 hr with h | rfl
  · exact hn.last r h
  · exact hx

theorem lr_one {lr : B32} (h : Within 1 lr) : (lr / lit (((1 : Int) : ℚ)) : B32) = lr := by
  obtain ⟨q, rfl, hq, h1⟩ := h
  have e : (lit (((1 : Int) : ℚ)) : B32) = num 1 := by push_cast; exact lit_one
  rw [e]
  show (if (1 : ℚ) = 0 then _ else ofRat (q / 1)) = _
  rw [if_neg (by norm_num), div_one, ofRat_num h1 rep_one (by norm_num), rnd_rep hq]

theorem neuron_update (hr : Room p opt i) {n n' : Neuron B32} (hn : TN p opt i a n) {e : B32} (he : Within (2 ^ p.errorExp i) e)
    (h : opt.updateSimple n e = .ok n') : TN p opt i a n' ∧ n'.errors = n.errors := by
  have hroom := hr.room
  have htwo := hr.two
  have hslow := hr.slow
  have hW : p.weightExp i = p.errorExp i + p.input - p.rate + p.damping + 24 := rfl
  have hrate : Within 1 opt.learningRate := hr.rate.mono (by rw [zpow_neg, zpow_natCast]; exact inv_le_one_of_one_le₀ (one_le_pow₀ (by norm_num)))
  unfold Sgd.updateSimple at h
  simp only at h
  rw [hn.batch, lr_one hrate] at h
  obtain ⟨⟨lastI, li⟩, h1, h⟩ := Res.bind_eq_ok.1 h
  obtain ⟨⟨prev, pd⟩, h2, h⟩ := Res.bind_eq_ok.1 h
  simp only at h
  obtain ⟨⟨ds, vs⟩, h3, h⟩ := Res.bind_eq_ok.1 h
  simp only at h
  obtain ⟨pp, h4, h⟩ := Res.bind_eq_ok.1 h
  obtain ⟨_, h5, h⟩ := Res.bind_eq_ok.1 h
  obtain ⟨pd', h6, h⟩ := Res.bind_eq_ok.1 h
  cases h
  obtain ⟨m1, e1⟩ := getBack_mem h1
  obtain ⟨m2, e2⟩ := getBack_mem h2
  have hle : Within (2 ^ (p.errorExp i - p.rate)) (opt.learningRate * e) := hr.rate.mulPow he (by omega) (by omega) (by omega)
  have hD : p.weightExp i - 24 ≤ p.weightExp i - 24 := le_rfl
  have hg : (p.errorExp i - p.rate + p.input) + p.damping ≤ p.weightExp i - 24 := by omega
  obtain ⟨q1, q2⟩ := sgd_within (lx := p.input) hg (by omega) hD (by omega) hle le_rfl hr.momentum hr.damped (hn.last _ m1) (hn.deltas _ m2) hn.weights h3
  have hd : Within (2 ^ (p.weightExp i - 24)) (opt.learningRate * e * n.bias + opt.momentum * pp) := by
    refine delta_within hg (by omega) (by omega) ?_ hr.momentum hr.damped (hn.deltas _ m2 _ (rd_mem h4))
    rw [hn.bias]
    refine hle.mul (B := 1) ⟨1, rfl, rep_one, by norm_num⟩ ?_ (rep_pow (by omega)) (pow_lt (by omega))
    rw [mul_one]; exact pow_le (by omega)
  refine ⟨⟨hn.act, hn.bias, by first | exact hn.batch | rfl, hn.opt, ?_, ?_, ?_, hn.sum⟩, rfl⟩
  · intro v hv
    rcases List.mem_append.1 hv with hv | hv
    · exact q2 v hv
    · rcases List.mem_cons.1 hv with rfl | hv
      · exact hd.mono (pow_le (by omega))
      · exact hn.weights v (List.mem_of_mem_drop hv)
  · intro r hr'
    rcases pushBack_mem h6 hr' with hr' | rfl
    · rw [e2] at hr'; exact hn.deltas r hr'
    · intro v hv
      rcases List.mem_append.1 hv with hv | hv
      · exact q1 v hv
      · rcases List.mem_cons.1 hv with rfl | hv
        · exact hd
        · exact allWithin_replicate (pow_pos' _).le _ v hv
  · intro r hr'
    rw [e1] at hr'
    exact hn.last r hr'

theorem scaled (hT : TanhLaw) (hr : Room p opt i) (ha : a = .sigmoid ∨ a = .tanh) {n : Neuron B32} (hn : TN p opt i a n) {e d : B32}
    (he : Within (2 ^ p.errorExp i) e) (hd : n.activationFunction.deriv n.sum = .ok d) : Within (2 ^ p.errorExp i) (e * d) := by
  have hroom := hr.room
  have htwo := hr.two
  have hslow := hr.slow
  have hW : p.weightExp i = p.errorExp i + p.input - p.rate + p.damping + 24 := rfl
  rw [hn.act] at hd
  exact he.mul (deriv_within hT ha hn.sum hd) (by rw [mul_one]) (rep_pow (by omega)) (pow_lt (by omega))

theorem neuron_train (hT : TanhLaw) (hr : Room p opt i) (ha : a = .sigmoid ∨ a = .tanh) {n n' : Neuron B32} (hn : TN p opt i a n) {e : B32}
    (he : Within (2 ^ p.errorExp i) e) (h : n.train e = .ok n') : TN p opt i a n' := by
  unfold Neuron.train at h
  obtain ⟨d, h1, h⟩ := Res.bind_eq_ok.1 h
  rw [hn.opt] at h
  exact (neuron_update hr hn (scaled hT hr ha hn he h1) h).1

theorem neuron_back (hT : TanhLaw) (hr : Room p opt i) (hc : p.errorExp i + p.weightExp i ≤ 127) (ha : a = .sigmoid ∨ a = .tanh) {n n' : Neuron B32}
    (hn : TN p opt i a n) {e : B32} {es : List B32} (he : Within (2 ^ p.errorExp i) e) (h : n.backOutput e = .ok (es, n')) :
    TN p opt i a n' ∧ AllWithin (2 ^ (p.errorExp i + p.weightExp i)) es := by
  have hroom := hr.room
  have htwo := hr.two
  have hslow := hr.slow
  have hW : p.weightExp i = p.errorExp i + p.input - p.rate + p.damping + 24 := rfl
  unfold Neuron.backOutput at h
  obtain ⟨d, h1, h⟩ := Res.bind_eq_ok.1 h
  simp only at h
  obtain ⟨er, h2, h⟩ := Res.bind_eq_ok.1 h
  obtain ⟨n1, h3, h⟩ := Res.bind_eq_ok.1 h
  cases h
  have hs := scaled hT hr ha hn he h1
  rw [hn.opt] at h3
  obtain ⟨t1, t2⟩ := neuron_update (n := { n with errors := er, optimizer := opt }) hr ⟨hn.act, hn.bias, hn.batch, rfl, hn.weights, hn.deltas, hn.last, hn.sum⟩ hs h3
  refine ⟨t1, ?_⟩
  rw [t2]
  exact error_within le_rfl (by omega) hc hs rfl hn.weights h2

end

end Snn.Bounded
