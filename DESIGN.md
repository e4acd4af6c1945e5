# Formal model of StraightforwardNeuralNetwork in Lean 4 — design

## 1. Approach
`/repo` is read as text; every definition under `lean/Verif/Model/` cites the file and lines it models.
* `Verif/Basic/*`  – the outcome monad `Res` (`ok | throw | ub`), the float interface and its instances, C++ integer
  arithmetic, list helpers.
* `Verif/Model/*`  – the model of the code, function by function (section 4 lists what is and is not modelled).
* `Verif/Spec/*`   – small independent specifications (mean, arg-max, cross-correlation, loss of a network as a plain
  function of its weights, fair executions, …). They do not use the model's helpers where they state mathematics.
* `Verif/Proofs/*` – helper lemmas, simulation relations, invariants.
* `Verif/Props/*`  – the theorems `Cnn_…` of the properties of `properties.jsonl`, with `example`s (or theorems on concrete
  objects from `Verif/Demo/*`) showing that the hypotheses are met by concrete non-trivial cases.
* `scripts/`       – generators of `properties.jsonl`, `MANIFEST.json` and `lean/Verif.lean`.
* `seeded/LOG.jsonl` – wrong programs tried against the theorems (section 7).

### Outcomes
A C++ call has an outcome in `Res α`: `ok a`, `throw msg` (a C++ exception), or `ub why` (undefined behaviour: access out
of bounds, integer division by zero, signed overflow, null dereference). UB is an outcome, never assumed away; no theorem
is true because a definition was totalised: a guard the code does not make is a hypothesis or an `ub` outcome.

### Floats
The model is generic in the float carrier `F`, with `+ - * /` and unary `-` from the standard classes and comparisons,
literals, `fpclassify`, `abs` (class `Flt`) and `exp`, `tanh`, `sqrt`, … (class `FTrans`).
* Theorems that need no law of arithmetic are stated for *every* carrier, hence also for IEEE binary32.
* Theorems about real mathematics (derivatives, means, ranges, softmax, gradient) are stated for any linearly ordered
  field or for ℝ: rounding is not modelled there, and the notes say so.
* `NF` (rationals plus NaN) is the carrier of the NaN witnesses; ℚ is the one of the computed whole-network witnesses.
* `B32` is IEEE binary32 with round to nearest even, infinities and NaN, without the sign of zero and flags (C58; `Basic/Round32` proves that its rounding is monotone and exact on 24-bit numbers, used for C08, C13, C44, C45 and C57 under rounding, with `exp` and `tanh` as parameters that satisfy the laws `ExpLaws`, `TanhLaw`).
The project compiles with `-O3 -ffast-math` (`/fp:fast`) in release mode (CMakeLists.txt:14,36-37); re-association and the assumption that no NaN
occurs, which such options permit, are not modelled.

### Randomness
Random draws are arbitrary function arguments or lists of draws: a theorem holds for every outcome. The generator itself is not
modelled. Probabilistic claims (C94, C95) give the draws the law of an ideal generator (independent uniform numbers) in the
specification, on top of the same model. `tools::rng` is a `static` of a header, so there is one generator for each translation
unit; a network uses a single stream of draws here, and Model/TwoNets.lean (C92) models the sharing of the generator by networks.

### Loops
`for` loops are folds or structural recursions; the unbounded training loop takes a number of iterations, and `running`
is an outcome: theorems quantify over every number of iterations.

### Objects and files
A network is a value; `unique_ptr`/`shared_ptr` graphs are flattened (layers own their neurons). `Model/Heap.lean` models the
one kind of sharing that exists (the optimizer object shared by the layers and neurons of a network) with addresses, and C32
proves that programs on objects agree with programs on values. The file system is a finite map from paths to token lists;
a Boost text archive is a list of tokens; a float token can be read back unless it is a NaN or an infinity
(`Model/Serialize.lean` cites the Boost sources this is taken from, which are in /repo/src/external_library).

### Concurrency
`Model/Async.lean` is a transition system whose atomic steps are those of the client thread and of the training threads,
with sequential consistency: client calls, thread start, `trainSync` cut into its visible writes, join. The plain `bool`s
are shared without synchronisation, which is a data race (UB) in C++: the results hold for a compiler that gives the
plain accesses the sequentially consistent meaning. `Model/Race.lean` adds the memory accesses of every step and the happens-before
order, and C91 says exactly which accesses race.

## 2. Trusted base
* Lean 4.33.0's kernel. Axioms: each theorem depends on at most `propext`, `Classical.choice`, `Quot.sound` (printed by
  `vcheck`, and by `#print axioms`); none is added. `decide +kernel` is evaluated by the kernel and adds no axiom.
* The faithfulness of the hand-written model to the text of `/repo`: the code was never run here.
* The specifications in `Verif/Spec/` and the statements in `Verif/Props/`.
* The assumptions listed in section 4.

## 3. Properties: model, proof, status
| id | modelled (files of `Verif/Model`) | how it is proved |
|---|---|---|
| C01–C03 | Data, Shuffle: order, Fisher–Yates with arbitrary draws, batch buffers | induction over the calls, `List.Perm`, fold lemmas |
| C04, C20, C21 | Training: `trainSync` with its loops | loop invariants; the run is related to an explicit list of epochs |
| C05, C06 | Data: time series windows, flattened sequences | invariants of the shuffle loops, arithmetic modulo R+1 |
| C07–C10 | Data: constructors, accessors, normalize, thresholds | invariants over histories; ordered-field algebra; refutations by witnesses |
| C11–C15, C57 | Stat: StatisticAnalysis | induction over evaluations, permutation invariance of folds, ordered-field algebra |
| C16–C19 | Wait | induction over expressions |
| C22–C25 | Training, Network: requests, idle flag, NaN, auto-save | case analysis, invariants over histories of calls |
| C26, C27, C57 | Network, Layer, Neuron | simulation relation "same parameters" (`Rel`, `SameProofs`), induction over layers and calls |
| C28, C42, C48 | Neuron: recurrent neuron, GRU | invariants of reachable units; refutations for every carrier |
| C29, C30, C62, C63 | Async | inductive invariants; fairness with well-founded ranking; explicit executions for the refutations |
| C31, C60 | Serialize | inverse parser by structural induction; simulation of later calls |
| C32 | Copy, Heap | refinement of programs on objects by programs on values |
| C33, C61 | Equal | structural; `Kin` (same architecture) is an invariant of all calls |
| C34, C49, C55, C59 | Factory, Network, Layer | well-formedness predicates of architectures, layers, networks; every call keeps them |
| C35–C39 | Layer | index arithmetic of kernel tables; the specifications are sums over coordinates |
| C40, C41, C43, C56 | Neuron, Layer, Network | forward/backward invariants, `HasDerivAt` chain rule by induction over layers; ring-buffer invariant |
| C44 | Activation | real analysis |
| C45–C47 | LayerOpt | real analysis, induction over the outputs |
| C50–C53 | Network, Neuron, Tools | direct |
| C54, C64 | Visual | loop invariants on pixel maps |
| C58 | Stat on `Basic/B32` | rounding lemmas, induction over evaluations |
| C65 | Training, Network | simulation between two histories: layers equal up to the inputs last seen |
| C66, C67 | Training, Stat, Network | loop invariant of evaluate joined with the inference function; history induction |
| C68, C69 | Factory, Network, Training, Copy, Serialize | build inversion per layer kind; invariant over every program (Reach) |
| C70 | `Model/Summary.lean` models every `summary()`; the text of a float is a parameter. The specification (`SummarySpec`) writes the text from the architecture only. | Structure of the network (C68, now with input and output shapes) and induction over the layers; witnesses for the swapped shapes of `Recurrence` and for `LocallyConnected1D`. |
| C71 | The `numberOfTraining` field of `Net` and the trace of a run. | `train_induct` with the invariant counter − steps, induction over the calls. |
| C72 | Layer, Network, Activation, LayerOpt | the structure of the network (C68) is an invariant of every history, so is `previousOutput = 0` of GRUs and the scale of dropout; then induction over the pooling layers at the end |
| C73 | Log, Training | the model with the log erases to the model without it (simulation, one lemma per loop); the accuracy lines follow the trace by the same induction |
| C74 | Counters, Training | invariants of the epoch loop (C21) and frame of the evaluation |
| C75 | Layer, Neuron, ElmanSpec | induction on the sequence; invariant "fed back value = last output" kept by every use of the layer |
| C76 | Layer, ConvSpec | the filter formulas (C36–C38) depend on the input only through the window |
| C77 | Layer, LayerOpt, Factory, Training | generic simulation of whole programs (GSim, GLayer) from a relation between layers; the hooks of neutral optimizers are the identity |
| C78 | Layer, Factory, Training | the same simulation; with one position the loops of the two layers are the same |
| C79 | Props/FullBatchProps | simulation of two runs of `train` whose data have the same examples up to order (`SameSet`); the whole set read as a batch is the mean of the rows for every permutation |
| C80 | Props/FullBatchProps | `trainStep` on a batch = `trainOnce` on the mean example (from C03); concrete centred batch over ℚ refutes the mini-batch reading |
| C81 | Spec/InitSpec, Props/InitProps | `Seg d d' us`: the weights `us` come from the draws between two streams; it composes over gates, neurons, layer optimizers and layers |
| C82 | Model/Stat, Spec/RatesSpec, Props/RatesProps | the four counters of every label are proved equal to counts over the testing rows; the folds then equal the documented means; refutation by a concrete network |
| C83 | Model/Crash, Proofs/CrashProofs, Props/CrashProps | the codecs are proved prefix-free in the sense that every strict prefix of a saved archive throws when loaded (`Codec.Whole`), by induction on the codec; refutation with the empty prefix |
| C84 | `Spec/PerfectSpec`, `Proofs/PerfectProofs`, `Props/PerfectProps` | zero errors are propagated through every feedforward layer and every update by induction over the layers; the reachable-state facts (lengths, optimizers, momentum) come from C68/C05; the two refutations are a general theorem and a computed witness |
| C85 | `Spec/SplitSpec`, `Proofs/SplitProofs`, `Props/SplitProps` | a simulation between two runs whose epochs are k apart, generic in a relation of networks preserved by training steps; one run of N+M epochs is aligned first with the run of N (k = 0), then with the run of M (k = N), by induction over the loops |
| C86 | Spec/SoftSpec, Proofs/SoftProofs, Props/SoftProps | the layers before Softmax as in C40 (`DescendsAll` is generic in the loss); twice the cross-entropy of softmax(z) has gradient 2(p - d) when the d sum to 1, which is what `calculateError` sends back and Softmax does not touch |
| C87 | Spec/ConvergeSpec, Proofs/{Converge,Momentum}Proofs, Props/{Converge,Momentum}Props | the error e and the bias weight w of each neuron follow e' = (1 - 2η(|x|²+1)) e + w, w' = 2η e exactly; bounds of this recurrence by induction on the number of steps; with momentum a linear recurrence of order two, with a quadratic Lyapunov function below the bound and a growing coordinate above it |
| C88 | Basic/B32, Round32, Spec/PrecisionSpec, Proofs/PrecisionProofs, Props/PrecisionProps | standard model of rounding proved for the binary32 carrier, error of a dot product by induction on its terms, propagation by induction on the layers, history by the invariants of C59 and C68 |
| C89 | Model/Label, Spec/LabelSpec, Props/LabelProps | invariant of the order of the data (C01, C02); witness by evaluation; counts by permutation |
| C90 | Spec/RobustSpec, Proofs/RobustProofs, Props/RobustProps | Lipschitz bounds of the seven activation functions (mean value theorem with the derivatives of C44), of a neuron, of softmax (1/2, through the logistic function), of pooling (maxima), of rows of kernels by induction; induction over the layers; histories by the invariants of C59 |
| C91 | Spec/RaceSpec, Model/Race, Proofs/RaceProofs, Props/RaceProps | executions of Model/Async with the memory accesses of every action; happens-before = program order + thread start + join; invariant: what the client accesses between the start and the join of a thread is only flags and results, everything before the start is ordered by it, every event of an earlier thread is followed by its join; refutation: between a begun thread and the client's write of the flag there is no edge |
| C92 | Model/TwoNets, Props/TwoNetsProps | product of two systems with tagged events and shared generators; projection of a trace on one network preserves happens-before; refutation: no edge leaves a network |
| C93 | Spec/GruGradSpec, Proofs/GruFrozen, Props/GruTrainProps | `Learns` says that a weight moves along the derivative (`HasDerivAt`) of the answer with respect to it; the answer is put in closed form, differentiated by the chain rule and compared with what `backOutput`/`train` and SGD do; invariant `Frozen` (kept by every call of a network, position by position) for the reset gate |
| C94 | Spec/ChanceSpec, Proofs/ChanceProofs, Proofs/MaskProofs, Props/ChanceProps | the draws are the product measure of uniform laws; outputs of training are sums of products of distinct keep bits, whose mean is their value at the means of the bits; masks keep the size of the layer by an invariant of all calls, copies and files |
| C95 | Spec/FairSpec, Proofs/FairProofs, Props/FairProps | every order of distinct elements comes from exactly one tuple of draws (existence and uniqueness by induction over the swaps, undoing the last one); for a time series the windows that fit are a filter of the shuffled windows, each order of which has as many preimages as insertion places |
| C96 | `Spec/FadeSpec`, `Proofs/FadeProofs`, `Props/{Fade,SharpFade}Props` | the feedbacks are read from the parameters; a relation between the two states of the network (`Tied`) says that the memories are within K kappa and is shown to hold with kappa rho after one answer: recurrent neurons by the slopes of the activations, gated units because their outputs stay in [-1, 1] and their three gates remember the same output, other layers by the gains of C90; the new-network case uses the bounds of the initial weights (C81) |
| C97 | Model/Neuron, LayerOpt, Network; Spec/SmallSpec; Proofs/SmallProofs, SmallStep | the outputs of dense networks are Lipschitz in all the weights near any point (induction on layers); with C40 the weights after a step with rate η are within Gη of the weights with the biases removed; the derivative is the same for all rates because networks built from the same draws have the same weights |
| C98 | OnlineSpec, Kaczmarz, OnlineProofs, OnlineProps | Lyapunov function (distance of the weights to the rule plus 4η times the squared bias weights) decreases at every step by the error; summed over the sequence; refutation: on the input 0 two errors in a row have squares of sum ≥ 1/(1+4η²) |
| C99 | OnlineSpec, LearnSpec, Kaczmarz, LearnProofs, OnlineProps | the step loop, the epochs, train and every sequence of calls are replayed as passes over permutations of the training set; one pass in any order contracts the Lyapunov function by a factor that comes from the smallest non-zero direction of the inputs (finite-dimensional argument); induction over the epochs |
| C100 | Overflow, Training; OverflowProofs, OverflowProps | simulation between the loops with checked and unbounded counters; position k b, epoch below the one at which the criterion is over; refuted for 2^30 examples in one batch and for 2147483647 epochs |
| C101 | Model/Bitmap, Spec/BitmapSpec, Proofs/BitmapProofs, Props/BitmapProps | the buffer and the bytes of the file against a reader of BMP files; the sequence of set_pixel calls of C54 and C64; floor of 255 v by counting |
| C102 | Spec/BoundedSpec, Proofs/BoundedProofs, BoundedNeuron, BoundedNet, BoundedRun, Props/BoundedProps | magnitudes as powers of two through dot products, errors and updates (`rnd` is monotone and fixes powers of two); `absorb`: adding at most 2^(w-24) to a value of at most 2^w rounds to at most 2^w, so the weights have a bound that does not depend on the number of steps; induction over layers (from the last to the first), steps, epochs and calls |
| C103 | Model/RaceCalls, Spec/AccessSpec | executions with the other calls of the client as actions with their effects and accesses; the invariant of C91 extended; the races by the fork/join splitting lemma of C91; the saveAs race by an explicit execution for every network |
| C104 | Model/RaceCalls, Model/Training | invariant of the sequences of calls, from the constructor |
| C105 | Spec/LinearSpec, Proofs/LinearProofs, Props/LinearProps | induction on the layers (composition of affine forms), structure of the network after every history (C68), accuracy as a proportion (C66), monotony of the activations |
| C106 | Spec/SilentSpec, Proofs/SilentProofs, Props/SilentProps | invariant of one neuron (activation, bias, weights w or w without bias) kept by every step: batches are means of inputs, so the affine form stays ≤ 0, the derivative is 0 and the SGD update is 0 except for the assigned bias; lifted to all calls by induction |
| C107 | Spec/DeadlineSpec, Proofs/DeadlineProofs, Props/DeadlineProps | the clock is an arbitrary (monotone) sequence of readings; induction on the two loops counts the readings at which the criterion is open; termination by the measure fuel + readings |
| C108 | Spec/GoalSpec, Proofs/GoalProofs, Props/GoalProps | an invariant of the loop of epochs with two phases: after an evaluation the reported accuracy is the share of the network; the steps are made only while the reported accuracy is below a |
| C109 | Model/Examples, Spec/ExampleSpec, Proofs/ExampleProofs, Props/ExampleProps | the example programs are written on the model and composed from C49 (accepted), C107 (returns), C55 (isValid returns), C66 and C108 |
| C110 | `Spec/BackSpec`, `Props/BackProps` | derivative of the answer along an input (chain rule through the three gates) against the exact list `backOutput` returns; recurrent neurons proved, gated units refuted with an exact criterion |
| C111 | `Spec/SharedSpec`, `Proofs/SharedProofs`, `Props/SharedProps` | induction over the uses with the induction principle of `train` (what a training leaves in the data), and a relational induction through all the loops of `train` on two data objects that differ only by their batch buffers; refutations computed over ℚ |
| C112 | Props/ThresholdProps, Proofs/ThresholdProofs | relational induction over the positions of two evaluations that differ only by the threshold: the networks stay equal but for their statistics, and each `evaluateOnce…` keeps an order between the counters (well classified ≤, true positives ≥ with the sum true positives + false negatives equal, total errors equal); the final rates then compare |
| C113 | Spec/UnitsSpec, Props/UnitsProps | construction: relational proof that nothing but the copied inputs depends on the values of the inputs; normalization: the bounds of a rescaled column are the rescaled bounds (uniqueness of the attained extrema), hence equal normalized values, column by column |
| C114 | Spec/MapSimSpec, Spec/ReorderSpec, Proofs/MapSimProofs, ReorderProofs, ReorderStart, Props/ReorderProps | a generic simulation of histories under a map of the inputs (history_sim) for any relation on networks kept by output, backOutput, train and the resets; the relation is: equal up to the order of every buffer indexed by the features (weights, previous weight changes, last inputs); sums over a permuted list are equal |
| C115 | Spec/HiddenSpec, Proofs/HiddenBack, HiddenPerm, HiddenNet, HiddenSim, HiddenStart, Props/HiddenProps | the simulation of C114 with unchanged inputs; the loops over neurons on a permuted list give the permuted outputs, the same sum of errors and the permuted neurons; an inductive relation on layer lists carries the permuted pair at depth k through the forward and backward loops |
| C116 | Spec/OutOrderSpec, Proofs/OutSim, OutNet, Props/OutOrderProps | simulation through every call: the networks differ by the order of the last neurons and of the statistics' counters; the sums over outputs are permuted, the data are the same with labels in the order p |
| C117 | Spec/PartsSpec, Props/PartsProps | from C66 and C82 (the reported figures are the textbook ones), counts and sums over a permuted concatenation |
| C118 | Neuron, Layer, Network, Training, Data; UnusedSpec, UnusedProofs, UnusedProps | invariant of neuron k of the first layer through every call: its weight f is the initial one, the stored increments are 0 at f, and between the two passes of a training step the stored input is 0 at f (also for the mean of a batch); for a gated layer the same of each gate |
| C119 | Spec/MultSpec, Proofs/MultSim, Proofs/MultProofs, Props/MultProps | two runs are related: errors times c, learning rate divided by c; every update of a weight and of a delta is the same. Neurons, recurrent neurons, gates, convolutions, locally connected, pooling; then layers, networks, histories by the general simulation MapSim |
| C120 | Spec/FreezeSpec, Proofs/FreezeProofs, Props/FreezeProps | invariant `Fz` over all calls (`Kept.history`): the errors that reach the layer and the ones before it are 0 and the memory of the momentum stays 0, so every update changes only the weight of the bias; the full statement is refuted for this weight |

Status and note of each claim (from `MANIFEST.json`; a `_partial` theorem is always accompanied by a `_refuted` one: the
full statement is then false of the code, it is not merely unproved):

| id | status | note |
|---|---|---|
| C01 | proved | Full, for every float type and every outcome of the random draws. |
| C02 | proved | Full for non-temporal and sequential data and for time series of at least R+1 steps (shorter ones fault in shuffle: C07_time_series_refuted). |
| C03 | proved | Full in exact arithmetic (any field); rounding of the running sums is not modelled. |
| C04 | proved | Full, every carrier; an epoch is cut short only by a stop request, a NaN or a duration criterion, as stated in the theorem. |
| C05 | proved | Full, every outcome of the random draws. |
| C06 | proved | Full; C06_shuffle_is_identity is an additional finding (shuffle of sequential data does nothing). |
| C07 | partial | Full for sequential data. For the other natures the constructor does not compare the numbers of inputs and labels nor the length of a time series with R+1: refuted there, and proved under exactly these two conditions. |
| C08 | partial | Full when no component is constant on the training set; refuted for constant components (the code scales them without dividing). Exact arithmetic; on IEEE binary32 for bounds whose difference is exact (such as [0,1] and [-1,1]), refuted for others (rounding). |
| C09 | proved | Full, every float type. |
| C10 | proved | Full. |
| C11 | proved | Full, over any linearly ordered field; C11_nan_refuted is an additional finding for NaN outputs (excluded by the property). |
| C12 | partial | Proved when some output exceeds the code's initial value; refuted otherwise. |
| C13 | proved | Full, exact arithmetic; and on IEEE binary32 with every rounding, for any number of evaluations (also beyond the 2^24 limit of the counters) and at most 2^24 labels. |
| C14 | partial | Running optimum proved under the stated condition, refuted otherwise. |
| C15 | partial | MAE proved; RMSE formula of the code refuted. |
| C16 | partial | Proved for every || expression of positive literals; C16_or_refuted exhibits 0_ep || 5_ep for which the code is wrong. |
| C17 | partial | Proved for every && expression without _mae; C17_and_refuted exhibits 0.1_mae && 5_ep, where the code drops the MAE criterion. |
| C18 | partial | Exact characterisation of which mixed expressions are rejected; C18_mix_refuted exhibits a mixed expression that is accepted. |
| C19 | partial | Monotonicity proved for values built by literals and one operator kind; refuted in general. |
| C20 | proved | Full; 'no NaN' is the hypothesis that isNan() is false when train returns. Every carrier with -1 < 0. |
| C21 | proved | Full for criteria without a duration (a duration criterion is also tested in the middle of an epoch). |
| C22 | partial | train: exact set of rejected requests, and accepted ones start. Refuted for the public evaluate, which checks nothing. |
| C23 | proved | Full as stated (train returns). C23_exception_refuted is an additional finding: when train throws during its evaluation the network stays marked as training for ever. |
| C24 | partial | Flag, weights, end of training: full. Metrics: NaN reported when the NaN is known before the last testing example; refuted for the last one. |
| C25 | proved | Full in exact arithmetic, after every history and for whole trainings. |
| C26 | proved | Full, every carrier, network and sequence of calls. |
| C27 | proved | Full, every carrier; failure outcomes included. |
| C28 | partial | Refuted for recurrent neurons and GRU: the reset has no influence on the outputs. Proved: the only memory is the previous output. |
| C29 | proved | Full, every interleaving (sequential consistency) of client calls and threads. |
| C30 | partial | No step after stop returned: full. stop returns under fairness: proved when the thread has passed its first instructions; refuted otherwise (lost stop request). |
| C31 | partial | Files, parameters, answers to every later sequence of calls: proved for networks without NaN output; refuted for the isNan flag (not saved) and for networks whose saved floats cannot be read back (NaN). |
| C32 | partial | Independence: full, on a heap model. Equality of the copy: proved for idle networks without stop request and NaN; refuted after stopTrainingAsync and for a network in training (the check tests the new object). |
| C33 | partial | Transitivity and != full. Reflexivity without NaN; symmetry for networks of one architecture. Refuted: NaN; networks with different numbers of layer optimizers (out of bounds in one order). |
| C34 | partial | Proved for every well formed architecture that ends with neurons, after every history; refuted when the last layer is a convolution or a pooling. |
| C35 | proved | Full, exact arithmetic. |
| C36 | proved | Full, exact arithmetic. |
| C37 | proved | Full, exact arithmetic. |
| C38 | partial | 1D: full. 2D: proved for as many tiles in x as in y, refuted otherwise. |
| C39 | partial | 1D with one channel and 2D with as many tiles in x as in y: full (forward, training, errors). Refuted for several channels in 1D and unequal numbers of tiles in 2D. |
| C40 | partial | Every weight but those of the biases, for networks of dense, locally connected and pooling layers of any depth after every history, over the reals; refuted for the weights of the biases (assigned instead of incremented). C40_locally1D_refuted: a locally connected layer in one dimension with several filters, not the first layer, sends the errors to the wrong inputs. |
| C41 | partial | Input weights full; refuted for the bias weight. |
| C42 | partial | Exact update of each weight; refuted: the bias weight never changes and its increment goes to the recurrent weight. |
| C43 | partial | Proved for every convolution that is not the first layer, after every history; refuted for a convolution as first layer. |
| C44 | partial | Derivatives: all but the improved sigmoid (refuted). Ranges: all but GELU (refuted). Over the reals; ranges also on IEEE binary32. |
| C45 | proved | Full over the reals; on IEEE binary32 outputs in [0,1] in the order of the raw outputs. The NaN theorem documents what happens to outputs that are not numbers, which the statement excludes. |
| C46 | partial | Full for layers with one neuron by output; refuted for convolutions, where outputs beyond the number of filters are never dropped. |
| C47 | partial | Exact effect; refuted: the sum of the weights is divided by the number of neurons, so it is not an average. |
| C48 | partial | Bound and convex combination full over the reals; refuted: the previous output of the blend is always 0. Layer level: the outputs on every sequence are those of the gated recurrence with keep = 0, new or after any use (missing: keep(h) = h, which the code does not do). |
| C49 | partial | Acceptance implies well formed, malformed implies throw, well formed implies acceptance; refuted for negative shapes (accepted), kernel size 0 and 0 filters (division by zero), and shapes with more than 2^31-1 values (C49_overflow_refuted: the product compared with the limit overflows first). |
| C50 | partial | Proved when some output exceeds -2, the start value of the search; otherwise -1 is returned (refuted). |
| C51 | proved | Full, every carrier. |
| C52 | partial | 2D full; 3D index, x and y full; roughenZ refuted. |
| C53 | partial | Extrema from two elements on, flatten, toConstSizeString, randomVector; refuted for vectors of one element and for randomBetween with max <= 0. |
| C54 | partial | Pixel places proved (in bounds, one pixel per value) for every locally connected layer; that picture f shows the weights of filter f is refuted: convolutions and max poolings read neurons that do not exist, locally connected layers read neuron n*(f+1). |
| C55 | partial | Exact report (first violated rule) for every reachable network over any ordered field; refuted for NaN parameters and for layer optimizers (dropout rates), which isValid never looks at. |
| C56 | partial | The exact errors sent back, for every reachable inner convolution; they are those of the gradient for one position, and refuted in general (derivative of the last position, weights already updated). |
| C57 | proved | Full: all confusion counts and every derived statistic, for evaluate of a whole network without recurrent layers, in every state, in exact arithmetic; on IEEE binary32 all confusion counts and the three rates bit for bit. The NaN theorem documents why the statement asks for outputs that are numbers. |
| C58 | partial | Exact up to 2^24 examples on binary32 (round to nearest even); every counter then stays at 2^24 and the accuracy is wrong, for every longer test. |
| C59 | proved | Full for architectures whose last layer has neurons (the statement's own restriction); C59_last_convolution_refuted documents the excluded case. |
| C60 | partial | Refuted for every auto-save: the file says 'training'. |
| C61 | partial | Proved for networks of one architecture, after any history; refuted in general because == ignores layer optimizers of the right operand. |
| C62 | proved | Full. |
| C63 | partial | Proved for the first training of a network; refuted for later ones (the epoch number of the last training is still visible). |
| C64 | proved | Full; C64_two_channels_refuted documents the excluded case of two channels, which reads out of bounds. |
| C65 | partial | Proved for every feedforward architecture and every pair of histories without NaN; refuted for recurrent networks (an inference changes what the next training learns) and for a NaN in the testing set (no training takes place). |
| C66 | proved | Full, every ordered field. |
| C67 | proved | Full, every ordered field. |
| C68 | proved | Full, every carrier. |
| C69 | partial | Neurons, layers and inputs full; parameters proved up to the largest int and refuted beyond (the int sum overflows for 50000 inputs and 50000 dense neurons, which the constructor accepts). |
| C70 | partial | Proved as an equality of texts for dense, convolution and pooling layers and recurrent layers with as many neurons as inputs. Refuted for recurrent and GRU layers (input and output shapes are swapped) and for locally connected layers (title without line break, unaligned labels); the parameter count overflows beyond 2^31-1 (C69). |
| C71 | proved | Proved for every history of calls, plus copies and loads. |
| C72 | proved | Exact real arithmetic; every history (Reach). Pooling layers after the last layer of neurons or filters are allowed in C72_range. The class (C72_cluster) needs a last layer of neurons, because of finding 3. |
| C73 | partial | True of train for all levels and clocks. False of the public evaluate(data) at a visible level (null pointer), see C73_evaluate_refuted. Lines are structured values; their text is not modelled. C73_times: the times shown by the lines (the progress is shown at most every 100 ms, the accuracy lines add up to the time since the start). |
| C74 | partial | getCurrentEpoch is one more than the number of epochs made; the setter is overwritten by every train; getCurrentIndex is not reset by evaluate(data). |
| C75 | proved | Full, for a new layer and after any use. |
| C76 | proved | Full for Convolution1D, Convolution2D and LocallyConnected1D (2D locally connected layers are C38, refuted there). |
| C77 | proved | Full, exact arithmetic; whole programs by a simulation between the two networks. |
| C78 | proved | Full, every arithmetic. |
| C79 | proved | two-run simulation of the whole of train; exact arithmetic |
| C80 | partial | refuted for the code: a batch step is exactly one step on the mean example (C80_mean_example_partial, all networks); a centred batch of a linear neuron does not move its slope (C80_gradient_refuted) |
| C81 | proved | positions of the draws strictly increasing over the whole network (any arithmetic); bounds over the reals |
| C82 | partial | C82_rates_partial: weighted rate = mean recall, F1 = mean of 2·hits/(predicted+support), mae = mean absolute error, for every feedforward network, any history, exact arithmetic, non-temporal data. C82_found_refuted: every example classified right (accuracy 1) but weighted rate and F1 are 0, since the rates use the separator and not the argmax. |
| C83 | partial | C83_no_mixture_partial: after a crash at any byte loadFrom answers as at some moment between two saves, or throws, or gives the complete new network (at most numberOfTrainingsBetweenTwoEvaluations different). C83_lost_refuted / C83_autosave_refuted: the save empties the file first, so a crash can lose both networks. Every carrier. |
| C84 | partial | For every reachable feedforward network that ends with neurons, without L1/L2 and with momentum 0, trainOnce on its own answers leaves every weight but the bias weights unchanged (C84_perfect_partial, C84_answer_partial). Refuted as stated: the bias weight is assigned and not updated, so the step sets every bias weight to 0 (C84_bias_refuted, in every case) and the network then answers differently (C84_unlearn_refuted). |
| C85 | partial | Proved for feedforward networks with any evaluation frequencies, any history before and any pause without training (C85_split_partial), also through a file (C85_resume_evaluated_partial); and for every network, recurrent included, in every state when nothing is evaluated or inferred (C85_any_partial, C85_resume_partial). The criterion N_ep is shown to last N epochs (lasts_ep). Refuted: recurrent networks that are evaluated (C85_recurrent_refuted), and data made anew instead of kept (C85_fresh_data_refuted). |
| C86 | partial | Real arithmetic. C86_cross_entropy_partial: every weight but those of the biases. C86_bias_refuted: the weight of a bias is replaced by minus the learning rate times the partial derivative (StochasticGradientDescent.cpp:37). |
| C87 | partial | Real arithmetic. C87_learned_partial, C87_speed_partial: geometric convergence without momentum for inputs that are not 0 and learning rates below 1/(|x|^2+2). C87_momentum_partial: with any momentum m from 0 to 1, convergence for learning rates below (1+m)/(|x|^2+2); C87_momentum_refuted: this bound is sharp. C87_zero_refuted: an input 0 (only the bias can learn) is never learned, whatever the learning rate, because the bias weight is replaced instead of updated. C87_great_refuted: learning rates from 1/(|x|^2+2) on do not converge. Hidden layers and other activation functions are missing. |
| C88 | proved | Proved on the binary32 carrier: rounding to nearest even, subnormals, overflow. FP contraction (fused multiply-add) and wider intermediate registers, that a compiler may choose, are not modelled. Activation functions with exponentials are not covered: their accuracy is the one of libm. |
| C89 | partial | False of shuffled training data (C89_shuffled_refuted): getTrainingLabel does not go through the shuffled order. Proved: the testing set, training data not shuffled, unshuffled or sequential, and the counts of the labels for all histories. |
| C90 | proved | Real arithmetic; recurrent layers excluded by hypothesis; the class theorem needs the winning output above the floor -2 of C50. |
| C91 | partial | The full statement is false: wantToStopTraining, isIdle and the results read by waitFor are plain members; every execution in which a training thread is joined has a data race on wantToStopTraining (C91_stop_refuted), hence every execution that destroys a network that was trained asynchronously (C91_destroyed_refuted), and every turn of waitFor races on the epoch (C91_wait_refuted). Proved: no execution ever races on the weights, the memories, the indexes of the data, the loop counters and the generators (C91_weights_partial). The accesses of the other calls (computeOutput, ...) during a training are not modelled. The list of the memory accesses of every action of a training is checked against what the action does: what is not listed as written does not change (C91_writes), and what is not listed has no effect (C91_reads). |
| C92 | partial | The full statement is false: the generators of Tools.hpp are shared by all the networks; as soon as both networks have drawn from the same one, there is a data race (C92_generator_refuted), e.g. when both begin an epoch on data of the same kind (C92_shuffles_refuted). Proved: each network goes only through states it reaches alone, and every race on a member of a network is one it has alone, never on its weights, data or counters (C92_two_networks_partial). |
| C93 | partial | Proved for the output gate: in every round each weight of an input moves along the derivative of the answer, after any calls. Refuted for the update gate (the error it receives is e*candidate + e*z, the derivative of z*candidate is the candidate) and for the reset gate: it never learns, in any unit of any network, through any history (its error is multiplied by previousOutput, which is always 0), although the answer depends on it. |
| C94 | partial | C94_mean_partial: for every network a program can hold whose layers are any layers without dropout, one layer of neurons (fully connected, recurrent or gated) with any activation and linear layers, the mean of the outputs of training is the output of computeOutput; C94_law: the exact law of the set of silenced positions. Refuted for convolution layers (C94_convolution_refuted, every case; C94_witness_refuted): positions from the number of filters on are never silenced but are scaled in inference. Missing: locally connected layers as the first layer with a dropout. |
| C95 | partial | Non-temporal data and time series: exact probability of every order, after any history (the law of the draws is that of an ideal generator; the Fisher-Yates algorithm of the C++ library is modelled). Sequential data: refuted, the order never changes. |
| C96 | proved | Over the reals. The rate rho is any number above the greatest feedback of the network; the constant C depends on the two pasts and the weights, not on the common sequence. C96_sharp: for one layer of recurrent linear neurons the difference of the answers is exactly the power of the recurrent weight, so no better rate and no weaker condition is possible. |
| C97 | partial | Refuted for the code: because the weight of the bias is assigned instead of updated (StochasticGradientDescent.cpp:37), C97_limit shows that the error after the first step tends, as the learning rate tends to 0, to the error of the network whose biases are ignored (within C times the rate). C97_increase_refuted / C97_refuted: whenever the biases matter for the outputs, there are expected outputs for which every small enough rate multiplies the error by more than 8. C97_decrease_partial: the error becomes smaller whenever it is smaller without biases. |
| C98 | partial | Over the reals, momentum 0, 4*eta*(|x|^2+4*eta) <= 1. Proved for rules without constant term (factor 4). Refuted for rules with a constant term (C98_constant_refuted: for every network the sum of the errors on the example 0 -> 1 grows without bound), because the weight of the bias is assigned (StochasticGradientDescent.cpp:37). |
| C99 | partial | Over the reals, momentum 0, batches of one example, non-temporal or sequential data, 4*eta*(|x|^2+4*eta) <= 1. Proved for training sets explained by a rule without constant term, with a rate that depends only on the inputs and the learning rate. Refuted for rules with a constant term (C99_constant_refuted, every network, every learning rate). |
| C100 | partial | Every outcome with int counters is the outcome of the unbounded model or a signed overflow (C100_refines), and there is no overflow when (floor(n/b)+1)*b and the epoch after the last are ints; in particular for less than 2^30 examples and 2^31-1 epochs. False otherwise: C100_index_refuted, C100_epochs_refuted. |
| C101 | partial | Partial: proved for values in [0, 1] and pictures whose width is below 21845 pixels and height below 65535 (outputs, inputs, weights of locally connected layers; exact arithmetic for the colours); refuted for values with 255 v <= -1 or >= 256 (conversion to unsigned char undefined) and for wider pictures (the size in the header is cut by the mask 0x0000FFFC). |
| C102 | proved | C102_finite; tanh and sqrt are any functions with the two laws TanhLaw (results are binary32 values in [-1, 1]) and SqrtLaw (the root of a value of at least 1 is at least 1). C102_linear_overflows: with the identity as activation the same hypotheses do not prevent overflow. C102_subnormal_flag: with a hyperbolic tangent as last layer isNan() can be true although every value is finite (a subnormal output). |
| C103 | partial | The full statement is false. Every accepted call that touches the weights while a thread that has begun to learn is not joined races on them (C103_call_refuted; in general C103_overlap_refuted), and the test of isIdle does not protect saveAs: right after startTrainingAsync it is accepted for every network, because the thread has not yet set the flag (C103_save_refuted). Proved: a client that only watches the training (isTraining, hasNan, results, epoch) until the thread is joined has no race on the weights, the data, the loop counters and the generators (C103_weights_partial); the list of the accesses of each call is checked against what it does: it changes only what is listed as written (C103_writes), and its answer, exception, file and effect depend only on what is listed (C103_reads). |
| C104 | proved | Proved for every carrier (C104_unmeasured, C104_settings), over the calls of Model/RaceCalls. |
| C105 | proved | Proved on the reals (exact arithmetic). C105_one_layer: one affine form per output after every history; C105_multiple, C105_classes: accuracy 1 implies that planes separate; C105_xor, C105_xor_classes: at most 3/4 on the exclusive or, with linear hidden layers (dropout, L1, L2 included) and the activations sigmoid, improved sigmoid, tanh, identity (and ReLU for one output compared with the separator). |
| C106 | partial | Exact arithmetic, any ordered field. C106_fresh: from a new network, full claim up to the weight of the bias, which training sets to 0. C106_silent_partial: after any history, when the neuron is silent with and without its bias. C106_zero: it keeps answering 0. C106_bias_refuted: without the second condition the claim is false, because the first training step assigns 0 to the weight of the bias and can revive the neuron. |
| C107 | partial | Full statement refuted: the elapsed milliseconds are converted to int (Wait.cpp:67), so the limit is missed when the check comes 2^31 ms after the start (C107_wrap_refuted). Proved for trainings shorter than that, for every network, data, clock and criterion that contains the limit. |
| C108 | proved | Exact arithmetic. C108_requests shows which criteria are meant. |
| C109 | proved | Exact arithmetic: termination over the reals, the meaning of success over every ordered field. For the recurrent example success is only what the evaluation reported (recurrent networks answer differently after another history, C28). |
| C110 | partial | True of recurrent neurons (differentiable activations). False of gated units: exact criterion, for every reachable unit, of when the error sent is the gradient (C110_gru_partial); a new unit never sends the gradient for an input whose update weight is not 0 (C110_gru_refuted). |
| C111 | partial | Proved for every carrier: content and evaluations for all natures; trainings on sequential data; trainings on non-temporal data after unshuffle(). Refuted: non-temporal without unshuffle() (the order left by the previous training is shuffled again), time series even with unshuffle() (the offset stays). |
| C112 | proved | Over every linearly ordered field. The two evaluations run in lockstep with related statistics (any network, including recurrent and convolutional ones, and the stop on a NaN output). The F1 score is not monotone and not claimed. |
| C113 | proved | Construction for every carrier, normalization over every linearly ordered field. C113_constant shows why components must vary: a constant component is left in its units (finding of C08). |
| C114 | proved | Exact arithmetic (every linearly ordered field). C114_rounded shows with a binary32 witness why the claim is restricted: rounded sums depend on the order. Convolutions as the first layer are outside the claim (the place of a pixel matters). |
| C115 | proved | Exact arithmetic (every linearly ordered field). Hidden layers with dropout (the mask is drawn neuron by neuron) or softmax are outside the claim; the layer after it may have any layer optimizers. |
| C116 | proved | Every history of calls, over every ordered field, with any problem except the classification (where ties go to the first output: C116_ties). C116_class: after those histories the predicted class is renamed by p whenever the largest output is reached once (C116_ties: with equal outputs it is not). |
| C117 | proved | Exact arithmetic (every linearly ordered field), non temporal data: C117_parts (accuracy and mean absolute error of a split), C117_repeated (all four figures). |
| C118 | proved | C118_unused (fully connected or recurrent first layer) and C118_gru (gated first layer: each of the three gates): from the construction, through any history of fitting calls. Exact arithmetic (an ordered field); in binary32 the same holds while the products stay finite (an infinite error times 0 is a NaN). |
| C119 | proved | Exact arithmetic (any ordered field): with 32-bit floats the products are rounded in another order. L1 and L2 are excluded because their term is added to the errors before the body and is then not multiplied by c. |
| C120 | partial | C120_frozen_partial: after any calls, with any momentum, every weight of the layer with the multiplier 0 and of the layers before it is the initial one, except the weight of the bias of every neuron of a layer that is not recurrent; recurrent and gated layers keep all their weights. C120_bias_refuted: a training step sets the weight of the bias of the frozen layer to 0, because the code assigns it instead of adding to it, so the full statement is false of the code. Over the exact arithmetic of any ordered field. |

## 4. What is modelled and what is not
Modelled, function by function: `Data` and its composites (nature and problem), `StatisticAnalysis`, `Wait` and literals,
`Tools.hpp` (flatten/roughen, extrema, random, const-size strings), activation functions, `SimpleNeuron`, `RecurrentNeuron`,
`GatedRecurrentUnit`, `CircularData`, `StochasticGradientDescent`, all layers (`FullyConnected`, `Recurrence`, `GruLayer`,
`Convolution1D/2D`, `LocallyConnected1D/2D`, `MaxPooling1D/2D`), layer optimizers (`Dropout`, `ErrorMultiplier`,
`L1/L2Regularization`, `Softmax`), `LayerFactory`, `NeuralNetwork`, `StraightforwardNeuralNetwork` (sync and async
training, save/load, auto-save, copy, comparison, validity), serialization functions, visualisation, the text of `summary()`, the log of a training for each level of `verbose`, the progress counters.

Simplifications (each is also stated at the definition concerned):
* `int` is `Int` without overflow, except in `Tools`, `Wait`, the sizes of the factory and `Overflow` (the counters of a training; overflow is `ub` there); sizes above 2^31-1 are excluded
  by the checks of the factory where the theorems need it.
* float literals are exact decimals; `float` vs `double` intermediate precision is not distinguished.
* The log is a list of structured lines (`Model/Log`), not text; bitmaps are modelled down to the bytes of the file (`Model/Bitmap`).
* Time is an arbitrary function of the step (`clock`): no assumption on its rate, monotonicity where a theorem says so.
* Memory exhaustion, exceptions of the standard library (file system errors) and the destructor's effects on files.
* The Boost library is trusted to write and read back the tokens in order.
* C32's heap assumes that distinct objects occupy distinct addresses (the allocator).

Not modelled: examples, benchmarks and tests of /repo; the Boost library itself; the random generator; opening and reading of image files;
the formatting of log lines.

## 5. Findings (disagreements between the code and the properties)
Each is a theorem `…_refuted`; they are about the unchanged code.
1. `StochasticGradientDescent.cpp:37` assigns the bias weight instead of adding to it (C40, C41).
2. `RecurrentNeuron` never trains its bias weight; its increment goes to the recurrent weight (C42); the temporal reset has no
   influence on outputs of recurrent neurons and GRUs (C28); the GRU's previous output is always 0 (C48).
3. Convolutions: derivative of the last position is used for all positions, weights change between positions (C56); as first
   layer the stored inputs are not replayed in order (C43); as last layer `getNumberOfOutputs()` is the number of filters (C34)
   and training faults (C59); Dropout never drops outputs beyond the number of filters (C46).
4. `LocallyConnected2D`, `MaxPooling2D` divide by the wrong dimension: wrong tiles or reads at index -1 for non-square numbers of
   tiles (C38, C39); `MaxPooling1D` ignores channels (C39).
5. `StatisticAnalysis`: argmax search starts at -2 (C12, C50); best F1 and RMSE never recorded (C14); RMSE not divided by the number of
   examples (C15); float counters stop at 2^24 (C58); NaN counts as well classified in multiple classification (C11) and on the last
   testing example of an evaluation (C24).
6. `Wait`: zero literals with `||` (C16), `_mae` with `&&` (C17), mixes through the right operand (C18), an error of exactly 0 (C19), overflow of
   `_min` literals (C16).
7. `Data`: sizes of inputs and labels not compared, short time series and empty last sequences fault (C07); `normalize` scales constant
   components (C08); the order of sequences is never shuffled (C06).
8. `evaluate` does not check its data (C22); an exception in training leaves the network marked as training (C23); auto-save writes networks
   marked as training, that can be neither trained nor saved once loaded (C60); the copy constructor tests the idle flag of the new object (C32).
9. `operator==` of layers indexes the other's optimizers without comparing the numbers (C33, C61).
10. Lost stop request and stale epoch number in asynchronous training (C30, C63).
11. `LayerFactory` accepts negative shapes, divides by zero for kernel size 0 or 0 filters (C49); `isValid` accepts NaN and never looks at
    layer optimizers (C55).
12. `roughenZ` is wrong (C52); `getMinValue/getMaxValue` reject vectors of one element, `randomBetween` leaves its range for max <= 0 (C53).
13. Improved sigmoid reports the derivative of the sigmoid; GELU's declared range is wrong (C44); L1/L2 regularisation divide by the number of neurons (C47).
14. Filter bitmaps read neurons that do not exist or belong to other filters (C54); an input with two channels is read out of bounds (C64).
15. An inference or an evaluation changes what a recurrent network learns next, and a NaN in the testing set prevents training (C65).
16. `getNumberOfParameters` overflows `int` for architectures the constructor accepts (C69).
17. `Recurrence::summary` and `GruLayer::summary` print the number of neurons as the input shape and the number of inputs as the output shape (`C70_recurrent_refuted`); `LocallyConnected1D::summary` and `LocallyConnected2D::summary` print the title and the input shape on one line (`C70_locally_refuted`).
18. On binary32 `normalize(-1, 0.1f)` gives values greater than 0.1f: the difference of the bounds is rounded (`C08_float_refuted`). A NaN output on a testing example makes all the counts NaN or not, depending on its position (`C57_nan_refuted`).
19. `evaluate(data)` passes a null `Wait*` that `logInProgress`/`logAccuracy` dereference when `verbose` is `minimal` or `complete` (StraightforwardNeuralNetwork.hpp:66, .cpp:141; `C73_evaluate_refuted`).
20. After `train(data, N_ep)` `getCurrentEpoch()` is N+1 (`C74_epoch_refuted`); `setNumberOfTrainingsBetweenTwoEvaluations` has no effect because `trainSync` overwrites the value (.cpp:93, `C74_setter_refuted`); `getCurrentIndex()` after `evaluate(data)` is the size of the testing set (`C74_index_refuted`).
21. Mini-batches are averaged before the forward pass (`Data::getTrainingData`, `getTrainingOutputs`): a step on a batch is a step on the mean example, not the mean of the gradients. A batch of `1 ↦ 1` and `-1 ↦ -1` teaches a linear neuron nothing (C80).
22. `getWeightedClusteringRate` and `getF1Score` compare the outputs with the separator whereas `getGlobalClusteringRate` uses the largest output: with every example classified right the two rates can be 0 (`C82_found_refuted`).
23. `saveSync` opens the file with `ofstream`, which empties it, and has no temporary file: a crash or a full disk during a save or auto-save loses both the old and the new network (`C83_lost_refuted`).
24. Because the bias weight is assigned instead of updated, a step on a perfectly answered example sets every bias weight to 0 and so makes the network forget (`C84_bias_refuted`, `C84_unlearn_refuted`).
25. Cutting a training in two changes what a recurrent network learns when trainings are evaluated, because `train` begins with an evaluation that overwrites the memory of the neurons (`C85_recurrent_refuted`); and the order left by `Data::shuffle` is part of the state that a resumed program would need (`C85_fresh_data_refuted`).
26. A linear neuron cannot learn the constant: on the input 0 its output tends to 2ηd/(1+2η) instead of d because the bias weight is assigned (`C87_zero_refuted`).
27. `Data::getTrainingLabel` and `getLabel(training, i)` ignore the shuffled order that `getData` and `getOutputs` use: after a shuffle the label of position i is the one of another example (C89).
28. `LocallyConnected1D::computeBackOutput` sends the errors of neuron n to the tile `n % numberOfKernelsPerFilter` whereas `computeOutput` gives it the tile `n / numberOfFilters`: with several filters and tiles the previous layers learn from the errors of other outputs (`C40_locally1D_refuted`).
29. Every program that stops an asynchronous training (also by destroying or retraining the network) has a data race on `wantToStopTraining`, a plain `bool` (StraightforwardNeuralNetwork.hpp:20-24, cpp:184-192): its behaviour is undefined in C++ (C91_stop_refuted, C91_destroyed_refuted); `waitFor` races on the epoch, the NaN flag and the statistics (C91_wait_refuted).
30. Two networks trained at the same time by two threads race on `tools::rng`, a `static` generator of a header shared by all the networks (Tools.hpp:41) (C92_generator_refuted, C92_shuffles_refuted).
31. `GatedRecurrentUnit`: the reset gate never learns (`d16 = d13 * previousOutput` and `previousOutput` is never written), so its weights are the random initial ones for ever; the update gate receives `d7 + d8` where the derivative is `d7` (C93).
32. Dropout is not right in expectation on a convolution layer: a position from the number of filters on is never silenced, and `computeOutput` scales it by 1 - p, so that the mean of the training output is 1/(1-p) times the answer (C94_convolution_refuted).
33. Small steps do not converge to no step: because the SGD step assigns the bias weights (StochasticGradientDescent.cpp:37), the first training step of a new dense network with a rate η → 0 changes its error to the one of the network without biases, however small the rate; for suitable expected outputs every small enough rate multiplies the error of the trained example by more than 8 (C97).
34. A layer of linear neurons cannot learn a constant term (C98_constant_refuted, C99_constant_refuted): on the one example 0 -> 1 the sum of the squared errors grows without bound and, of the answers after N and N+1 epochs, one is always wrong by at least 1/(1+2η).
35. `trainSync` computes `index + batchSize` as an `int`, up to `(n / batchSize + 1) * batchSize`: 2^30 examples in one batch overflow (C100_index_refuted); `train(data, 2147483647_ep)` must increment `epoch` beyond INT_MAX to end (C100_epochs_refuted).
36. `saveData2DAsBitmap`/`saveFilterLayersAsBitmap` convert `v * 255` to `unsigned char` without a check (NeuralNetworkVisualization.cpp:102, 125, 130-132): undefined for a value with 255 v ≤ -1 or ≥ 256, for example -1 after `normalize(-1, 1)` or an output of tanh (`C101_range_refuted`).
37. BitmapImage.hpp:454 masks the row size with `0x0000FFFC`: from a width of 21845 pixels on, the sizes in the headers are too small (`C101_wide_refuted`).
38. A shape with more than 2^31-1 values is not rejected by the size check of the constructor: the product overflows before it is compared (LayerFactory.cpp:265-268, 20-23; C49_overflow_refuted).
39. `isNan()` is true after a finite subnormal output (`fpclassify` must be FP_NORMAL or FP_ZERO, NeuralNetwork.cpp:67 and 80): a hyperbolic tangent network on data in the ranges stops training with NaN results although no value is NaN (C102_subnormal_flag).
40. `saveAs`, `saveFeatureMapsAsBitmap` and `saveFilterLayersAsBitmap` test `isIdle` to refuse to run during a training, but the flag is set by the training thread itself: right after `startTrainingAsync` they are accepted and race with the thread (C103). The copy constructor tests the flag of the new object, so it is never refused.
41. (C106) A ReLU neuron that is silent on a whole training set has derivative 0 everywhere and should not be changed by training, but the first step assigns 0 to the weight of its bias (StochasticGradientDescent.cpp:37 `=`), which can revive it (`C106_bias_refuted`).
42. `Wait::isOver` converts the elapsed milliseconds to `int` (Wait.cpp:67): 2^31 ms after the start (24 days 20 hours) the elapsed time becomes negative, so a limit that was not noticed before that moment is never noticed for the next 24 days (C107_wrap_refuted).
43. RecurrenceExample.cpp:21 expects `0.10f` for the sum of 0.5 and 0.5 (the 23rd example); with the precision 0.5 of the example the output may be anything up to 0.6. The comment of the four examples says "3s on a parallel thread" where the call waits 2 s on the calling thread (ClassificationExample.cpp:22).
44. A gated recurrent unit sends wrong errors to the previous layer (C110): `d9 = d7 + d8` (GatedRecurrentUnit.cpp:39) adds `error * z` to the error of the update gate, and the reset gate contributes nothing because `previousOutput` stays 0.
45. `Data::unshuffle` does not restore a time series: the offset of the windows and the order of the windows stay as the last training left them (C111), and `train` does not unshuffle at its end, so the order of the examples of a second training depends on the first.
46. A feature that is constantly 0 during the training keeps its random initial weight for ever: the "L1"/"L2" layer optimizers change the errors that are propagated, not the weights, so nothing decays it (C118).
47. (C120) An `ErrorMultiplier(0)` does not freeze a layer: the errors are 0 and all the weights but one stay, but the update assigns the weight of the bias (StochasticGradientDescent.cpp), so the first training step sets it to 0 in this layer and every layer before it (recurrent layers excepted: their bias never learns).

## 6. Non-vacuity
Beside the theorems, examples instantiate the hypotheses with concrete objects: `Demo/Demo.lean` builds networks (dense, recurrent, GRU, convolution,
locally connected, pooling, dropout, softmax) with the model's own constructor and data sets, computed by the kernel.

## 7. Wrong programs
`seeded/LOG.jsonl` lists the edits of the model tried (one realistic bug each), the claim each breaks, the theorems that stopped proving,
and what was tightened when none did.
