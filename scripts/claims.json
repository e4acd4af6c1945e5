{
 "C16": {
  "note": "Proved for every || expression of positive literals; C16_or_refuted exhibits 0_ep || 5_ep for which the code is wrong."
 },
 "C17": {
  "note": "Proved for every && expression without _mae; C17_and_refuted exhibits 0.1_mae && 5_ep, where the code drops the MAE criterion."
 },
 "C18": {
  "note": "Exact characterisation of which mixed expressions are rejected; C18_mix_refuted exhibits a mixed expression that is accepted."
 },
 "C19": {
  "note": "Monotonicity proved for values built by literals and one operator kind; refuted in general."
 },
 "C11": {
  "note": "Full, over any linearly ordered field; C11_nan_refuted is an additional finding for NaN outputs (excluded by the property).",
  "status": "proved"
 },
 "C12": {
  "note": "Proved when some output exceeds the code's initial value; refuted otherwise."
 },
 "C13": {
  "note": "Full, exact arithmetic; and on IEEE binary32 with every rounding, for any number of evaluations (also beyond the 2^24 limit of the counters) and at most 2^24 labels."
 },
 "C14": {
  "note": "Running optimum proved under the stated condition, refuted otherwise."
 },
 "C15": {
  "note": "MAE proved; RMSE formula of the code refuted."
 },
 "C57": {
  "note": "Full: all confusion counts and every derived statistic, for evaluate of a whole network without recurrent layers, in every state, in exact arithmetic; on IEEE binary32 all confusion counts and the three rates bit for bit. The NaN theorem documents why the statement asks for outputs that are numbers.",
  "status": "proved"
 },
 "C59": {
  "status": "proved",
  "note": "Full for architectures whose last layer has neurons (the statement's own restriction); C59_last_convolution_refuted documents the excluded case."
 },
 "C45": {
  "status": "proved",
  "note": "Full over the reals; on IEEE binary32 outputs in [0,1] in the order of the raw outputs. The NaN theorem documents what happens to outputs that are not numbers, which the statement excludes."
 },
 "C55": {
  "note": "Exact report (first violated rule) for every reachable network over any ordered field; refuted for NaN parameters and for layer optimizers (dropout rates), which isValid never looks at."
 },
 "C64": {
  "status": "proved",
  "note": "Full; C64_two_channels_refuted documents the excluded case of two channels, which reads out of bounds."
 },
 "C54": {
  "note": "Pixel places proved (in bounds, one pixel per value) for every locally connected layer; that picture f shows the weights of filter f is refuted: convolutions and max poolings read neurons that do not exist, locally connected layers read neuron n*(f+1)."
 },
 "C58": {
  "note": "Exact up to 2^24 examples on binary32 (round to nearest even); every counter then stays at 2^24 and the accuracy is wrong, for every longer test."
 },
 "C43": {
  "note": "Proved for every convolution that is not the first layer, after every history; refuted for a convolution as first layer."
 },
 "C56": {
  "note": "The exact errors sent back, for every reachable inner convolution; they are those of the gradient for one position, and refuted in general (derivative of the last position, weights already updated)."
 },
 "C01": {
  "note": "Full, for every float type and every outcome of the random draws."
 },
 "C02": {
  "note": "Full for non-temporal and sequential data and for time series of at least R+1 steps (shorter ones fault in shuffle: C07_time_series_refuted)."
 },
 "C03": {
  "note": "Full in exact arithmetic (any field); rounding of the running sums is not modelled."
 },
 "C04": {
  "note": "Full, every carrier; an epoch is cut short only by a stop request, a NaN or a duration criterion, as stated in the theorem."
 },
 "C05": {
  "note": "Full, every outcome of the random draws."
 },
 "C06": {
  "note": "Full; C06_shuffle_is_identity is an additional finding (shuffle of sequential data does nothing)."
 },
 "C07": {
  "note": "Full for sequential data. For the other natures the constructor does not compare the numbers of inputs and labels nor the length of a time series with R+1: refuted there, and proved under exactly these two conditions."
 },
 "C08": {
  "note": "Full when no component is constant on the training set; refuted for constant components (the code scales them without dividing). Exact arithmetic; on IEEE binary32 for bounds whose difference is exact (such as [0,1] and [-1,1]), refuted for others (rounding)."
 },
 "C09": {
  "note": "Full, every float type."
 },
 "C10": {
  "note": "Full."
 },
 "C20": {
  "note": "Full; 'no NaN' is the hypothesis that isNan() is false when train returns. Every carrier with -1 < 0."
 },
 "C21": {
  "note": "Full for criteria without a duration (a duration criterion is also tested in the middle of an epoch)."
 },
 "C22": {
  "note": "train: exact set of rejected requests, and accepted ones start. Refuted for the public evaluate, which checks nothing."
 },
 "C23": {
  "note": "Full as stated (train returns). C23_exception_refuted is an additional finding: when train throws during its evaluation the network stays marked as training for ever.",
  "status": "proved"
 },
 "C24": {
  "note": "Flag, weights, end of training: full. Metrics: NaN reported when the NaN is known before the last testing example; refuted for the last one."
 },
 "C25": {
  "note": "Full in exact arithmetic, after every history and for whole trainings."
 },
 "C26": {
  "note": "Full, every carrier, network and sequence of calls."
 },
 "C27": {
  "note": "Full, every carrier; failure outcomes included."
 },
 "C28": {
  "note": "Refuted for recurrent neurons and GRU: the reset has no influence on the outputs. Proved: the only memory is the previous output."
 },
 "C29": {
  "note": "Full, every interleaving (sequential consistency) of client calls and threads."
 },
 "C30": {
  "note": "No step after stop returned: full. stop returns under fairness: proved when the thread has passed its first instructions; refuted otherwise (lost stop request)."
 },
 "C31": {
  "note": "Files, parameters, answers to every later sequence of calls: proved for networks without NaN output; refuted for the isNan flag (not saved) and for networks whose saved floats cannot be read back (NaN)."
 },
 "C32": {
  "note": "Independence: full, on a heap model. Equality of the copy: proved for idle networks without stop request and NaN; refuted after stopTrainingAsync and for a network in training (the check tests the new object)."
 },
 "C33": {
  "note": "Transitivity and != full. Reflexivity without NaN; symmetry for networks of one architecture. Refuted: NaN; networks with different numbers of layer optimizers (out of bounds in one order)."
 },
 "C34": {
  "note": "Proved for every well formed architecture that ends with neurons, after every history; refuted when the last layer is a convolution or a pooling."
 },
 "C35": {
  "note": "Full, exact arithmetic."
 },
 "C36": {
  "note": "Full, exact arithmetic."
 },
 "C37": {
  "note": "Full, exact arithmetic."
 },
 "C38": {
  "note": "1D: full. 2D: proved for as many tiles in x as in y, refuted otherwise."
 },
 "C39": {
  "note": "1D with one channel and 2D with as many tiles in x as in y: full (forward, training, errors). Refuted for several channels in 1D and unequal numbers of tiles in 2D."
 },
 "C40": {
  "note": "Every weight but those of the biases, for networks of dense, locally connected and pooling layers of any depth after every history, over the reals; refuted for the weights of the biases (assigned instead of incremented). C40_locally1D_refuted: a locally connected layer in one dimension with several filters, not the first layer, sends the errors to the wrong inputs."
 },
 "C41": {
  "note": "Input weights full; refuted for the bias weight."
 },
 "C42": {
  "note": "Exact update of each weight; refuted: the bias weight never changes and its increment goes to the recurrent weight."
 },
 "C44": {
  "note": "Derivatives: all but the improved sigmoid (refuted). Ranges: all but GELU (refuted). Over the reals; ranges also on IEEE binary32."
 },
 "C46": {
  "note": "Full for layers with one neuron by output; refuted for convolutions, where outputs beyond the number of filters are never dropped."
 },
 "C47": {
  "note": "Exact effect; refuted: the sum of the weights is divided by the number of neurons, so it is not an average."
 },
 "C48": {
  "note": "Bound and convex combination full over the reals; refuted: the previous output of the blend is always 0. Layer level: the outputs on every sequence are those of the gated recurrence with keep = 0, new or after any use (missing: keep(h) = h, which the code does not do)."
 },
 "C49": {
  "note": "Acceptance implies well formed, malformed implies throw, well formed implies acceptance; refuted for negative shapes (accepted), kernel size 0 and 0 filters (division by zero), and shapes with more than 2^31-1 values (C49_overflow_refuted: the product compared with the limit overflows first)."
 },
 "C50": {
  "note": "Proved when some output exceeds -2, the start value of the search; otherwise -1 is returned (refuted)."
 },
 "C51": {
  "note": "Full, every carrier."
 },
 "C52": {
  "note": "2D full; 3D index, x and y full; roughenZ refuted."
 },
 "C53": {
  "note": "Extrema from two elements on, flatten, toConstSizeString, randomVector; refuted for vectors of one element and for randomBetween with max <= 0."
 },
 "C60": {
  "note": "Refuted for every auto-save: the file says 'training'."
 },
 "C61": {
  "note": "Proved for networks of one architecture, after any history; refuted in general because == ignores layer optimizers of the right operand."
 },
 "C62": {
  "note": "Full."
 },
 "C63": {
  "note": "Proved for the first training of a network; refuted for later ones (the epoch number of the last training is still visible)."
 },
 "C65": {
  "note": "Proved for every feedforward architecture and every pair of histories without NaN; refuted for recurrent networks (an inference changes what the next training learns) and for a NaN in the testing set (no training takes place)."
 },
 "C66": {
  "note": "Full, every ordered field."
 },
 "C67": {
  "note": "Full, every ordered field."
 },
 "C68": {
  "note": "Full, every carrier."
 },
 "C69": {
  "note": "Neurons, layers and inputs full; parameters proved up to the largest int and refuted beyond (the int sum overflows for 50000 inputs and 50000 dense neurons, which the constructor accepts)."
 },
 "C70": {
  "note": "Proved as an equality of texts for dense, convolution and pooling layers and recurrent layers with as many neurons as inputs. Refuted for recurrent and GRU layers (input and output shapes are swapped) and for locally connected layers (title without line break, unaligned labels); the parameter count overflows beyond 2^31-1 (C69)."
 },
 "C71": {
  "note": "Proved for every history of calls, plus copies and loads."
 },
 "C72": {
  "note": "Exact real arithmetic; every history (Reach). Pooling layers after the last layer of neurons or filters are allowed in C72_range. The class (C72_cluster) needs a last layer of neurons, because of finding 3."
 },
 "C73": {
  "note": "True of train for all levels and clocks. False of the public evaluate(data) at a visible level (null pointer), see C73_evaluate_refuted. Lines are structured values; their text is not modelled. C73_times: the times shown by the lines (the progress is shown at most every 100 ms, the accuracy lines add up to the time since the start)."
 },
 "C74": {
  "note": "getCurrentEpoch is one more than the number of epochs made; the setter is overwritten by every train; getCurrentIndex is not reset by evaluate(data)."
 },
 "C75": {
  "note": "Full, for a new layer and after any use."
 },
 "C76": {
  "note": "Full for Convolution1D, Convolution2D and LocallyConnected1D (2D locally connected layers are C38, refuted there)."
 },
 "C77": {
  "note": "Full, exact arithmetic; whole programs by a simulation between the two networks."
 },
 "C78": {
  "note": "Full, every arithmetic."
 },
 "C79": {
  "note": "two-run simulation of the whole of train; exact arithmetic"
 },
 "C80": {
  "note": "refuted for the code: a batch step is exactly one step on the mean example (C80_mean_example_partial, all networks); a centred batch of a linear neuron does not move its slope (C80_gradient_refuted)"
 },
 "C81": {
  "note": "positions of the draws strictly increasing over the whole network (any arithmetic); bounds over the reals"
 },
 "C82": {
  "note": "C82_rates_partial: weighted rate = mean recall, F1 = mean of 2·hits/(predicted+support), mae = mean absolute error, for every feedforward network, any history, exact arithmetic, non-temporal data. C82_found_refuted: every example classified right (accuracy 1) but weighted rate and F1 are 0, since the rates use the separator and not the argmax."
 },
 "C83": {
  "note": "C83_no_mixture_partial: after a crash at any byte loadFrom answers as at some moment between two saves, or throws, or gives the complete new network (at most numberOfTrainingsBetweenTwoEvaluations different). C83_lost_refuted / C83_autosave_refuted: the save empties the file first, so a crash can lose both networks. Every carrier."
 },
 "C84": {
  "note": "For every reachable feedforward network that ends with neurons, without L1/L2 and with momentum 0, trainOnce on its own answers leaves every weight but the bias weights unchanged (C84_perfect_partial, C84_answer_partial). Refuted as stated: the bias weight is assigned and not updated, so the step sets every bias weight to 0 (C84_bias_refuted, in every case) and the network then answers differently (C84_unlearn_refuted)."
 },
 "C85": {
  "note": "Proved for feedforward networks with any evaluation frequencies, any history before and any pause without training (C85_split_partial), also through a file (C85_resume_evaluated_partial); and for every network, recurrent included, in every state when nothing is evaluated or inferred (C85_any_partial, C85_resume_partial). The criterion N_ep is shown to last N epochs (lasts_ep). Refuted: recurrent networks that are evaluated (C85_recurrent_refuted), and data made anew instead of kept (C85_fresh_data_refuted)."
 },
 "C86": {
  "note": "Real arithmetic. C86_cross_entropy_partial: every weight but those of the biases. C86_bias_refuted: the weight of a bias is replaced by minus the learning rate times the partial derivative (StochasticGradientDescent.cpp:37)."
 },
 "C87": {
  "note": "Real arithmetic. C87_learned_partial, C87_speed_partial: geometric convergence without momentum for inputs that are not 0 and learning rates below 1/(|x|^2+2). C87_momentum_partial: with any momentum m from 0 to 1, convergence for learning rates below (1+m)/(|x|^2+2); C87_momentum_refuted: this bound is sharp. C87_zero_refuted: an input 0 (only the bias can learn) is never learned, whatever the learning rate, because the bias weight is replaced instead of updated. C87_great_refuted: learning rates from 1/(|x|^2+2) on do not converge. Hidden layers and other activation functions are missing."
 },
 "C88": {
  "note": "Proved on the binary32 carrier: rounding to nearest even, subnormals, overflow. FP contraction (fused multiply-add) and wider intermediate registers, that a compiler may choose, are not modelled. Activation functions with exponentials are not covered: their accuracy is the one of libm."
 },
 "C89": {
  "note": "False of shuffled training data (C89_shuffled_refuted): getTrainingLabel does not go through the shuffled order. Proved: the testing set, training data not shuffled, unshuffled or sequential, and the counts of the labels for all histories."
 },
 "C90": {
  "note": "Real arithmetic; recurrent layers excluded by hypothesis; the class theorem needs the winning output above the floor -2 of C50."
 },
 "C91": {
  "note": "The full statement is false: wantToStopTraining, isIdle and the results read by waitFor are plain members; every execution in which a training thread is joined has a data race on wantToStopTraining (C91_stop_refuted), hence every execution that destroys a network that was trained asynchronously (C91_destroyed_refuted), and every turn of waitFor races on the epoch (C91_wait_refuted). Proved: no execution ever races on the weights, the memories, the indexes of the data, the loop counters and the generators (C91_weights_partial). The accesses of the other calls (computeOutput, ...) during a training are not modelled. The list of the memory accesses of every action of a training is checked against what the action does: what is not listed as written does not change (C91_writes), and what is not listed has no effect (C91_reads)."
 },
 "C92": {
  "note": "The full statement is false: the generators of Tools.hpp are shared by all the networks; as soon as both networks have drawn from the same one, there is a data race (C92_generator_refuted), e.g. when both begin an epoch on data of the same kind (C92_shuffles_refuted). Proved: each network goes only through states it reaches alone, and every race on a member of a network is one it has alone, never on its weights, data or counters (C92_two_networks_partial)."
 },
 "C93": {
  "note": "Proved for the output gate: in every round each weight of an input moves along the derivative of the answer, after any calls. Refuted for the update gate (the error it receives is e*candidate + e*z, the derivative of z*candidate is the candidate) and for the reset gate: it never learns, in any unit of any network, through any history (its error is multiplied by previousOutput, which is always 0), although the answer depends on it."
 },
 "C94": {
  "note": "C94_mean_partial: for every network a program can hold whose layers are any layers without dropout, one layer of neurons (fully connected, recurrent or gated) with any activation and linear layers, the mean of the outputs of training is the output of computeOutput; C94_law: the exact law of the set of silenced positions. Refuted for convolution layers (C94_convolution_refuted, every case; C94_witness_refuted): positions from the number of filters on are never silenced but are scaled in inference. Missing: locally connected layers as the first layer with a dropout."
 },
 "C95": {
  "note": "Non-temporal data and time series: exact probability of every order, after any history (the law of the draws is that of an ideal generator; the Fisher-Yates algorithm of the C++ library is modelled). Sequential data: refuted, the order never changes."
 },
 "C96": {
  "note": "Over the reals. The rate rho is any number above the greatest feedback of the network; the constant C depends on the two pasts and the weights, not on the common sequence. C96_sharp: for one layer of recurrent linear neurons the difference of the answers is exactly the power of the recurrent weight, so no better rate and no weaker condition is possible."
 },
 "C97": {
  "note": "Refuted for the code: because the weight of the bias is assigned instead of updated (StochasticGradientDescent.cpp:37), C97_limit shows that the error after the first step tends, as the learning rate tends to 0, to the error of the network whose biases are ignored (within C times the rate). C97_increase_refuted / C97_refuted: whenever the biases matter for the outputs, there are expected outputs for which every small enough rate multiplies the error by more than 8. C97_decrease_partial: the error becomes smaller whenever it is smaller without biases."
 },
 "C98": {
  "note": "Over the reals, momentum 0, 4*eta*(|x|^2+4*eta) <= 1. Proved for rules without constant term (factor 4). Refuted for rules with a constant term (C98_constant_refuted: for every network the sum of the errors on the example 0 -> 1 grows without bound), because the weight of the bias is assigned (StochasticGradientDescent.cpp:37)."
 },
 "C99": {
  "note": "Over the reals, momentum 0, batches of one example, non-temporal or sequential data, 4*eta*(|x|^2+4*eta) <= 1. Proved for training sets explained by a rule without constant term, with a rate that depends only on the inputs and the learning rate. Refuted for rules with a constant term (C99_constant_refuted, every network, every learning rate)."
 },
 "C100": {
  "note": "Every outcome with int counters is the outcome of the unbounded model or a signed overflow (C100_refines), and there is no overflow when (floor(n/b)+1)*b and the epoch after the last are ints; in particular for less than 2^30 examples and 2^31-1 epochs. False otherwise: C100_index_refuted, C100_epochs_refuted."
 },
 "C101": {
  "note": "Partial: proved for values in [0, 1] and pictures whose width is below 21845 pixels and height below 65535 (outputs, inputs, weights of locally connected layers; exact arithmetic for the colours); refuted for values with 255 v <= -1 or >= 256 (conversion to unsigned char undefined) and for wider pictures (the size in the header is cut by the mask 0x0000FFFC)."
 },
 "C102": {
  "note": "C102_finite; tanh and sqrt are any functions with the two laws TanhLaw (results are binary32 values in [-1, 1]) and SqrtLaw (the root of a value of at least 1 is at least 1). C102_linear_overflows: with the identity as activation the same hypotheses do not prevent overflow. C102_subnormal_flag: with a hyperbolic tangent as last layer isNan() can be true although every value is finite (a subnormal output)."
 },
 "C103": {
  "note": "The full statement is false. Every accepted call that touches the weights while a thread that has begun to learn is not joined races on them (C103_call_refuted; in general C103_overlap_refuted), and the test of isIdle does not protect saveAs: right after startTrainingAsync it is accepted for every network, because the thread has not yet set the flag (C103_save_refuted). Proved: a client that only watches the training (isTraining, hasNan, results, epoch) until the thread is joined has no race on the weights, the data, the loop counters and the generators (C103_weights_partial); the list of the accesses of each call is checked against what it does: it changes only what is listed as written (C103_writes), and its answer, exception, file and effect depend only on what is listed (C103_reads)."
 },
 "C104": {
  "note": "Proved for every carrier (C104_unmeasured, C104_settings), over the calls of Model/RaceCalls."
 },
 "C105": {
  "note": "Proved on the reals (exact arithmetic). C105_one_layer: one affine form per output after every history; C105_multiple, C105_classes: accuracy 1 implies that planes separate; C105_xor, C105_xor_classes: at most 3/4 on the exclusive or, with linear hidden layers (dropout, L1, L2 included) and the activations sigmoid, improved sigmoid, tanh, identity (and ReLU for one output compared with the separator)."
 },
 "C106": {
  "note": "Exact arithmetic, any ordered field. C106_fresh: from a new network, full claim up to the weight of the bias, which training sets to 0. C106_silent_partial: after any history, when the neuron is silent with and without its bias. C106_zero: it keeps answering 0. C106_bias_refuted: without the second condition the claim is false, because the first training step assigns 0 to the weight of the bias and can revive the neuron."
 },
 "C107": {
  "note": "Full statement refuted: the elapsed milliseconds are converted to int (Wait.cpp:67), so the limit is missed when the check comes 2^31 ms after the start (C107_wrap_refuted). Proved for trainings shorter than that, for every network, data, clock and criterion that contains the limit."
 },
 "C108": {
  "note": "Exact arithmetic. C108_requests shows which criteria are meant."
 },
 "C109": {
  "note": "Exact arithmetic: termination over the reals, the meaning of success over every ordered field. For the recurrent example success is only what the evaluation reported (recurrent networks answer differently after another history, C28)."
 },
 "C110": {
  "note": "True of recurrent neurons (differentiable activations). False of gated units: exact criterion, for every reachable unit, of when the error sent is the gradient (C110_gru_partial); a new unit never sends the gradient for an input whose update weight is not 0 (C110_gru_refuted)."
 },
 "C111": {
  "note": "Proved for every carrier: content and evaluations for all natures; trainings on sequential data; trainings on non-temporal data after unshuffle(). Refuted: non-temporal without unshuffle() (the order left by the previous training is shuffled again), time series even with unshuffle() (the offset stays)."
 },
 "C112": {
  "note": "Over every linearly ordered field. The two evaluations run in lockstep with related statistics (any network, including recurrent and convolutional ones, and the stop on a NaN output). The F1 score is not monotone and not claimed."
 },
 "C113": {
  "note": "Construction for every carrier, normalization over every linearly ordered field. C113_constant shows why components must vary: a constant component is left in its units (finding of C08)."
 },
 "C114": {
  "note": "Exact arithmetic (every linearly ordered field). C114_rounded shows with a binary32 witness why the claim is restricted: rounded sums depend on the order. Convolutions as the first layer are outside the claim (the place of a pixel matters)."
 },
 "C115": {
  "note": "Exact arithmetic (every linearly ordered field). Hidden layers with dropout (the mask is drawn neuron by neuron) or softmax are outside the claim; the layer after it may have any layer optimizers."
 },
 "C116": {
  "note": "Every history of calls, over every ordered field, with any problem except the classification (where ties go to the first output: C116_ties). C116_class: after those histories the predicted class is renamed by p whenever the largest output is reached once (C116_ties: with equal outputs it is not)."
 },
 "C117": {
  "note": "Exact arithmetic (every linearly ordered field), non temporal data: C117_parts (accuracy and mean absolute error of a split), C117_repeated (all four figures)."
 },
 "C118": {
  "note": "C118_unused (fully connected or recurrent first layer) and C118_gru (gated first layer: each of the three gates): from the construction, through any history of fitting calls. Exact arithmetic (an ordered field); in binary32 the same holds while the products stay finite (an infinite error times 0 is a NaN)."
 },
 "C119": {
  "note": "Exact arithmetic (any ordered field): with 32-bit floats the products are rounded in another order. L1 and L2 are excluded because their term is added to the errors before the body and is then not multiplied by c."
 },
 "C120": {
  "note": "C120_frozen_partial: after any calls, with any momentum, every weight of the layer with the multiplier 0 and of the layers before it is the initial one, except the weight of the bias of every neuron of a layer that is not recurrent; recurrent and gated layers keep all their weights. C120_bias_refuted: a training step sets the weight of the bias of the frozen layer to 0, because the code assigns it instead of adding to it, so the full statement is false of the code. Over the exact arithmetic of any ordered field."
 }
}