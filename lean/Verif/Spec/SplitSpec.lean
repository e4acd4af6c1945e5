import Verif.Spec.LeakSpec

/-! # Specification: a training of a given number of epochs -/

namespace Snn.Spec

section
variable {F : Type} [Flt F]

/-- The criterion is met exactly after `n` epochs, whatever the clock and the evaluations say. -/
def Lasts (w : Wait F) (n : Nat) : Prop := ∀ ms e a m, 0 < e → w.isOver ms e a m = decide ((n : Int) < e)

/-- The shuffles of `env'` are those of `env` from the epoch `n + 1` on: the random generator of the process goes on. -/
def GoesOn (env env' : Env F) (n : Nat) : Prop := ∀ e, 0 < e → env'.rng e = env.rng (e + n)

/-- The two networks have the same parameters, counted the same number of trainings, consumed the same random draws and give the
same answer to every input. -/
structure SameLearned [FTrans F] [Add F] [Sub F] [Mul F] [Div F] [Neg F] (r q : Run F) : Prop where
  params : netParams q.snn.net = netParams r.snn.net
  trainings : q.snn.net.numberOfTraining = r.snn.net.numberOfTraining
  draws : q.draws = r.draws
  output : ∀ x t, Prod.fst <$> q.snn.computeOutput x t = Prod.fst <$> r.snn.computeOutput x t
  cluster : ∀ x t, Prod.fst <$> q.snn.computeCluster x t = Prod.fst <$> r.snn.computeCluster x t

end

end Snn.Spec
