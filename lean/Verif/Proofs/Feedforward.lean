import Verif.Proofs.LeakProofs
import Verif.Proofs.NetBuild

/-! An architecture without recurrent layers makes layers that are not recurrent. -/

set_option linter.all false

namespace Snn

open Spec

section
variable {F : Type} [Flt F] [FTrans F] [Add F] [Sub F] [Mul F] [Div F] [Neg F]

theorem buildConvolution_plain {o : Sgd F} {ni f k : Int} {shape : List Int} {act : Act} {opts : List (LayerOptModel F)} {d d' : Draws F}
    {l : Layer F} (h : buildConvolution o ni shape f k act opts d = .ok (l, d')) : NonRecurrent l := by
  unfold buildConvolution at h
  split at h
  · split at h
    · cases h
    · iterate 5 obtain ⟨_, _, h⟩ := Res.bind_eq_ok.1 h
      simp only at h
      obtain ⟨⟨ns, d1⟩, h1, h⟩ := Res.bind_eq_ok.1 h
      simp only at h
      obtain ⟨_, _, h⟩ := Res.bind_eq_ok.1 h
      cases h
      trivial
  · split at h
    · cases h
    · iterate 8 obtain ⟨_, _, h⟩ := Res.bind_eq_ok.1 h
      simp only at h
      obtain ⟨⟨ns, d1⟩, h1, h⟩ := Res.bind_eq_ok.1 h
      simp only at h
      obtain ⟨_, _, h⟩ := Res.bind_eq_ok.1 h
      cases h
      trivial
  · cases h

theorem buildLocallyConnected_plain {o : Sgd F} {ni f k : Int} {shape : List Int} {act : Act} {opts : List (LayerOptModel F)} {d d' : Draws F}
    {l : Layer F} (h : buildLocallyConnected o ni shape f k act opts d = .ok (l, d')) : NonRecurrent l := by
  unfold buildLocallyConnected at h
  split at h
  · split at h
    · cases h
    · iterate 5 obtain ⟨_, _, h⟩ := Res.bind_eq_ok.1 h
      simp only at h
      obtain ⟨⟨ns, d1⟩, h1, h⟩ := Res.bind_eq_ok.1 h
      simp only at h
      obtain ⟨_, _, h⟩ := Res.bind_eq_ok.1 h
      cases h
      trivial
  · split at h
    · cases h
    · iterate 8 obtain ⟨_, _, h⟩ := Res.bind_eq_ok.1 h
      simp only at h
      obtain ⟨⟨ns, d1⟩, h1, h⟩ := Res.bind_eq_ok.1 h
      simp only at h
      obtain ⟨_, _, h⟩ := Res.bind_eq_ok.1 h
      cases h
      trivial
  · cases h

theorem buildMaxPooling_plain {ni k : Int} {shape : List Int} {l : Layer F} (h : buildMaxPooling ni shape k = .ok l) : NonRecurrent l := by
  unfold buildMaxPooling at h
  split at h
  · split at h
    · cases h
    · obtain ⟨_, _, h⟩ := Res.bind_eq_ok.1 h
      simp only at h
      split at h
      · cases h
      · iterate 2 obtain ⟨_, _, h⟩ := Res.bind_eq_ok.1 h
        cases h
        trivial
  · split at h
    · cases h
    · iterate 5 obtain ⟨_, _, h⟩ := Res.bind_eq_ok.1 h
      split at h
      · cases h
      · obtain ⟨_, _, h⟩ := Res.bind_eq_ok.1 h
        cases h
        trivial
  · cases h

theorem buildLayer_plain {o : Sgd F} {m : LayerModel F} (hm : Feedforward [m]) {shape : List Int} {d d' : Draws F} {l : Layer F}
    (h : buildLayer o m shape d = .ok (l, d')) : NonRecurrent l := by
  have hm := hm m (by simp)
  unfold buildLayer at h
  obtain ⟨_, _, h⟩ := Res.bind_eq_ok.1 h
  split at h
  · cases h
  split at h
  · cases h
  cases m with
  | fullyConnected n act opts =>
    simp only at h
    split at h
    · cases h
    · obtain ⟨h1, ns, h2, h3⟩ := buildSimple_set (P := fun _ => True) (fun _ _ _ h => trivial) h
      unfold NonRecurrent
      rw [h2]; trivial
  | recurrence n act opts => exact absurd hm id
  | gru n opts => exact absurd hm id
  | maxPooling k =>
    simp only at h
    obtain ⟨l1, h1, h⟩ := Res.bind_eq_ok.1 h
    cases h
    exact buildMaxPooling_plain h1
  | locallyConnected f k act opts => exact buildLocallyConnected_plain h
  | convolution f k act opts => exact buildConvolution_plain h
  | input s => cases h

theorem buildLayers_plain {o : Sgd F} : ∀ {ms : List (LayerModel F)} {shape : List Int} {d d' : Draws F} {ls : List (Layer F)},
    Feedforward ms → buildLayers o ms shape d = .ok (ls, d') → ∀ l ∈ ls, NonRecurrent l
  | [], shape, d, d', ls, hm, h => by cases h; simp
  | m :: ms, shape, d, d', ls, hm, h => by
    unfold buildLayers at h
    obtain ⟨⟨l, d1⟩, h1, h⟩ := Res.bind_eq_ok.1 h
    obtain ⟨⟨ls', d2⟩, h2, h⟩ := Res.bind_eq_ok.1 h
    cases h
    intro x hx
    rcases List.mem_cons.1 hx with rfl | hx
    · exact buildLayer_plain (fun q hq => hm q (by simp at hq; simp [hq])) h1
    · exact buildLayers_plain (fun q hq => hm q (by simp [hq])) h2 x hx

theorem Net.make_plain {arch : List (LayerModel F)} (ha : Feedforward arch) {o : Sgd F} {d d' : Draws F} {n : Net F}
    (h : Net.make arch o d = .ok (n, d')) : ∀ l ∈ n.layers, NonRecurrent l := by
  unfold Net.make at h
  obtain ⟨⟨ls, d1⟩, h1, h⟩ := Res.bind_eq_ok.1 h
  obtain ⟨last, h2, h⟩ := Res.bind_eq_ok.1 h
  cases h
  unfold LayerFactory.build at h1
  split at h1
  · cases h1
  · split at h1
    · split at h1
      · cases h1
      · obtain ⟨_, _, h1⟩ := Res.bind_eq_ok.1 h1
        split at h1
        · cases h1
        · exact buildLayers_plain (fun q hq => ha q (by simp [hq])) h1
    · cases h1

/-- A new feedforward network is ready for the comparison of `LeakProofs`. -/
theorem make_plainNet {arch : List (LayerModel F)} {s s' : List Nat} (hw : WellFormed arch s s') (ha : Feedforward arch) {o : Sgd F}
    {d d' : Draws F} {snn : Snn F} (h : Snn.make arch o d = .ok (snn, d')) : Plain snn.net.layers ∧ snn.net.outputNan = false := by
  obtain ⟨⟨net, d1⟩, h1, h⟩ := Res.bind_eq_ok.1 h
  obtain ⟨err, h2, h⟩ := Res.bind_eq_ok.1 h
  split at h
  · cases h
  cases h
  have hz := Net.make_zeroed h1
  have hp := Net.make_plain ha h1
  obtain ⟨⟨ls, d2⟩, h3, h1⟩ := Res.bind_eq_ok.1 h1
  obtain ⟨last, h4, h1⟩ := Res.bind_eq_ok.1 h1
  cases h1
  obtain ⟨ls2, d3, hb, hwf, _, _⟩ := factory_ok o hw d
  rw [h3] at hb
  cases hb
  refine ⟨⟨?_, hp⟩, rfl⟩
  intro l hl
  obtain ⟨a, b, hlw⟩ := layersWF_mem hwf l hl
  exact (hz l hl).ready hlw.body

end

end Snn
