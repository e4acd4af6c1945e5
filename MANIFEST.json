{
 "claims": [
  {
   "property": "C01",
   "status": "proved",
   "theorems": [
    "Snn.C01_shuffle_perm"
   ],
   "note": "Full, for every float type and every outcome of the random draws."
  },
  {
   "property": "C02",
   "status": "proved",
   "theorems": [
    "Snn.C02_pairing"
   ],
   "note": "Full for non-temporal and sequential data and for time series of at least R+1 steps (shorter ones fault in shuffle: C07_time_series_refuted)."
  },
  {
   "property": "C03",
   "status": "proved",
   "theorems": [
    "Snn.C03_batch_mean"
   ],
   "note": "Full in exact arithmetic (any field); rounding of the running sums is not modelled."
  },
  {
   "property": "C04",
   "status": "proved",
   "theorems": [
    "Snn.TrainProps.C04_cover",
    "Snn.TrainProps.C04_epoch"
   ],
   "note": "Full, every carrier; an epoch is cut short only by a stop request, a NaN or a duration criterion, as stated in the theorem."
  },
  {
   "property": "C05",
   "status": "proved",
   "theorems": [
    "Snn.C05_coverage",
    "Snn.C05_windows"
   ],
   "note": "Full, every outcome of the random draws."
  },
  {
   "property": "C06",
   "status": "proved",
   "theorems": [
    "Snn.C06_sequences",
    "Snn.C06_shuffle_is_identity"
   ],
   "note": "Full; C06_shuffle_is_identity is an additional finding (shuffle of sequential data does nothing)."
  },
  {
   "property": "C07",
   "status": "partial",
   "theorems": [
    "Snn.C07_empty_sequence_refuted",
    "Snn.C07_safe_partial",
    "Snn.C07_sequential",
    "Snn.C07_sizes_refuted",
    "Snn.C07_time_series_refuted"
   ],
   "note": "Full for sequential data. For the other natures the constructor does not compare the numbers of inputs and labels nor the length of a time series with R+1: refuted there, and proved under exactly these two conditions."
  },
  {
   "property": "C08",
   "status": "partial",
   "theorems": [
    "Snn.C08_constant_refuted",
    "Snn.C08_normalize_partial",
    "Snn.FloatProps.C08_float_partial",
    "Snn.FloatProps.C08_float_refuted"
   ],
   "note": "Full when no component is constant on the training set; refuted for constant components (the code scales them without dividing). Exact arithmetic; on IEEE binary32 for bounds whose difference is exact (such as [0,1] and [-1,1]), refuted for others (rounding)."
  },
  {
   "property": "C09",
   "status": "proved",
   "theorems": [
    "Snn.C09_label"
   ],
   "note": "Full, every float type."
  },
  {
   "property": "C10",
   "status": "proved",
   "theorems": [
    "Snn.C10_thresholds"
   ],
   "note": "Full."
  },
  {
   "property": "C11",
   "status": "proved",
   "theorems": [
    "Snn.StatSpec.C11_counts",
    "Snn.StatSpec.C11_nan_refuted"
   ],
   "note": "Full, over any linearly ordered field; C11_nan_refuted is an additional finding for NaN outputs (excluded by the property)."
  },
  {
   "property": "C12",
   "status": "partial",
   "theorems": [
    "Snn.StatSpec.C12_argmax_partial",
    "Snn.StatSpec.C12_argmax_refuted"
   ],
   "note": "Proved when some output exceeds the code's initial value; refuted otherwise."
  },
  {
   "property": "C13",
   "status": "proved",
   "theorems": [
    "Snn.FloatProps.C13_float_rates",
    "Snn.FloatProps.C13_float_returns",
    "Snn.StatSpec.C13_rates"
   ],
   "note": "Full, exact arithmetic; and on IEEE binary32 with every rounding, for any number of evaluations (also beyond the 2^24 limit of the counters) and at most 2^24 labels."
  },
  {
   "property": "C14",
   "status": "partial",
   "theorems": [
    "Snn.StatSpec.C14_best_partial",
    "Snn.StatSpec.C14_best_refuted"
   ],
   "note": "Running optimum proved under the stated condition, refuted otherwise."
  },
  {
   "property": "C15",
   "status": "partial",
   "theorems": [
    "Snn.StatSpec.C15_mae_partial",
    "Snn.StatSpec.C15_rmse_refuted"
   ],
   "note": "MAE proved; RMSE formula of the code refuted."
  },
  {
   "property": "C16",
   "status": "partial",
   "theorems": [
    "Snn.WaitSpec.C16_duration_literals_partial",
    "Snn.WaitSpec.C16_duration_overflow_refuted",
    "Snn.WaitSpec.C16_or_partial",
    "Snn.WaitSpec.C16_or_refuted"
   ],
   "note": "Proved for every || expression of positive literals; C16_or_refuted exhibits 0_ep || 5_ep for which the code is wrong."
  },
  {
   "property": "C17",
   "status": "partial",
   "theorems": [
    "Snn.WaitSpec.C17_and_partial",
    "Snn.WaitSpec.C17_and_refuted"
   ],
   "note": "Proved for every && expression without _mae; C17_and_refuted exhibits 0.1_mae && 5_ep, where the code drops the MAE criterion."
  },
  {
   "property": "C18",
   "status": "partial",
   "theorems": [
    "Snn.WaitSpec.C18_mix_partial",
    "Snn.WaitSpec.C18_mix_refuted"
   ],
   "note": "Exact characterisation of which mixed expressions are rejected; C18_mix_refuted exhibits a mixed expression that is accepted."
  },
  {
   "property": "C19",
   "status": "partial",
   "theorems": [
    "Snn.WaitSpec.C19_stays_over_partial",
    "Snn.WaitSpec.C19_stays_over_refuted"
   ],
   "note": "Monotonicity proved for values built by literals and one operator kind; refuted in general."
  },
  {
   "property": "C20",
   "status": "proved",
   "theorems": [
    "Snn.TrainProps.C20_epochs"
   ],
   "note": "Full; 'no NaN' is the hypothesis that isNan() is false when train returns. Every carrier with -1 < 0."
  },
  {
   "property": "C21",
   "status": "proved",
   "theorems": [
    "Snn.TrainProps.C21_first_boundary"
   ],
   "note": "Full for criteria without a duration (a duration criterion is also tested in the middle of an epoch)."
  },
  {
   "property": "C22",
   "status": "partial",
   "theorems": [
    "Snn.FaultProps.C22_evaluate_inputs_refuted",
    "Snn.FaultProps.C22_evaluate_refuted",
    "Snn.TrainProps.C22_accepted",
    "Snn.TrainProps.C22_train_partial"
   ],
   "note": "train: exact set of rejected requests, and accepted ones start. Refuted for the public evaluate, which checks nothing."
  },
  {
   "property": "C23",
   "status": "proved",
   "theorems": [
    "Snn.FaultProps.C23_exception_refuted",
    "Snn.TrainProps.C23_idle"
   ],
   "note": "Full as stated (train returns). C23_exception_refuted is an additional finding: when train throws during its evaluation the network stays marked as training for ever."
  },
  {
   "property": "C24",
   "status": "partial",
   "theorems": [
    "Snn.HistoryProps.C24_during_evaluation_partial",
    "Snn.HistoryProps.C24_epoch_stops",
    "Snn.HistoryProps.C24_evaluate_partial",
    "Snn.HistoryProps.C24_last_example_refuted",
    "Snn.HistoryProps.C24_no_update",
    "Snn.HistoryProps.C24_sticky",
    "Snn.HistoryProps.C24_train_stops"
   ],
   "note": "Flag, weights, end of training: full. Metrics: NaN reported when the NaN is known before the last testing example; refuted for the last one."
  },
  {
   "property": "C25",
   "status": "proved",
   "theorems": [
    "Snn.EvalProps.C25_autosave",
    "Snn.EvalProps.C25_train"
   ],
   "note": "Full in exact arithmetic, after every history and for whole trainings."
  },
  {
   "property": "C26",
   "status": "proved",
   "theorems": [
    "Snn.InferenceProps.C26_evaluate_keeps_data",
    "Snn.InferenceProps.C26_inference_keeps_parameters"
   ],
   "note": "Full, every carrier, network and sequence of calls."
  },
  {
   "property": "C27",
   "status": "proved",
   "theorems": [
    "Snn.InferenceProps.C27_cluster_is_a_function",
    "Snn.InferenceProps.C27_output_is_a_function"
   ],
   "note": "Full, every carrier; failure outcomes included."
  },
  {
   "property": "C28",
   "status": "partial",
   "theorems": [
    "Snn.NeuronSpec.C28_gru_reset_refuted",
    "Snn.NeuronSpec.C28_past_is_previous_output_partial",
    "Snn.NeuronSpec.C28_recurrent_reset_refuted",
    "Snn.NeuronSpec.C28_witness_refuted"
   ],
   "note": "Refuted for recurrent neurons and GRU: the reset has no influence on the outputs. Proved: the only memory is the previous output."
  },
  {
   "property": "C29",
   "status": "proved",
   "theorems": [
    "Snn.AsyncProps.C29_one_loop"
   ],
   "note": "Full, every interleaving (sequential consistency) of client calls and threads."
  },
  {
   "property": "C30",
   "status": "partial",
   "theorems": [
    "Snn.AsyncProps.C30_lost_stop_refuted",
    "Snn.AsyncProps.C30_no_step_after_stop",
    "Snn.AsyncProps.C30_stop_returns_partial",
    "Snn.AsyncProps.C30_stop_when_training_partial"
   ],
   "note": "No step after stop returned: full. stop returns under fairness: proved when the thread has passed its first instructions; refuted otherwise (lost stop request)."
  },
  {
   "property": "C31",
   "status": "partial",
   "theorems": [
    "Snn.SaveProps.C31_files",
    "Snn.SaveProps.C31_loads_iff",
    "Snn.SaveProps.C31_nan_flag_refuted",
    "Snn.SaveProps.C31_no_file",
    "Snn.SaveProps.C31_save_keeps",
    "Snn.SaveProps.C31_save_load_partial",
    "Snn.SaveProps.C31_unreadable_refuted"
   ],
   "note": "Files, parameters, answers to every later sequence of calls: proved for networks without NaN output; refuted for the isNan flag (not saved) and for networks whose saved floats cannot be read back (NaN)."
  },
  {
   "property": "C32",
   "status": "partial",
   "theorems": [
    "Snn.CopyProps.C32_copy_after_stop_refuted",
    "Snn.CopyProps.C32_copy_partial",
    "Snn.CopyProps.C32_copy_shows",
    "Snn.CopyProps.C32_copy_while_training_refuted",
    "Snn.HeapProps.C32_independent",
    "Snn.HeapProps.C32_programs",
    "Snn.HeapProps.C32_programs_run"
   ],
   "note": "Independence: full, on a heap model. Equality of the copy: proved for idle networks without stop request and NaN; refuted after stopTrainingAsync and for a network in training (the check tests the new object)."
  },
  {
   "property": "C33",
   "status": "partial",
   "theorems": [
    "Snn.EqualProps.C33_ne",
    "Snn.EqualProps.C33_reflexive",
    "Snn.EqualProps.C33_reflexive_partial",
    "Snn.EqualProps.C33_reflexive_refuted",
    "Snn.EqualProps.C33_symmetric_partial",
    "Snn.EqualProps.C33_symmetric_refuted",
    "Snn.EqualProps.C33_transitive"
   ],
   "note": "Transitivity and != full. Reflexivity without NaN; symmetry for networks of one architecture. Refuted: NaN; networks with different numbers of layer optimizers (out of bounds in one order)."
  },
  {
   "property": "C34",
   "status": "partial",
   "theorems": [
    "Snn.SafeProps.C34_convolution_refuted",
    "Snn.SafeProps.C34_outputs_partial",
    "Snn.SafeProps.C34_pooling_refuted"
   ],
   "note": "Proved for every well formed architecture that ends with neurons, after every history; refuted when the last layer is a convolution or a pooling."
  },
  {
   "property": "C35",
   "status": "proved",
   "theorems": [
    "Snn.LayerProps.C35_layer",
    "Snn.NeuronSpec.C35_neuron"
   ],
   "note": "Full, exact arithmetic."
  },
  {
   "property": "C36",
   "status": "proved",
   "theorems": [
    "Snn.LayerProps.C36_convolution1D"
   ],
   "note": "Full, exact arithmetic."
  },
  {
   "property": "C37",
   "status": "proved",
   "theorems": [
    "Snn.LayerProps.C37_convolution2D"
   ],
   "note": "Full, exact arithmetic."
  },
  {
   "property": "C38",
   "status": "partial",
   "theorems": [
    "Snn.LayerProps.C38_locally1D",
    "Snn.LayerProps.C38_locally2D_partial",
    "Snn.LayerProps.C38_locally2D_refuted"
   ],
   "note": "1D: full. 2D: proved for as many tiles in x as in y, refuted otherwise."
  },
  {
   "property": "C39",
   "status": "partial",
   "theorems": [
    "Snn.LayerProps.C39_pool1D_channels_refuted",
    "Snn.LayerProps.C39_pool1D_partial",
    "Snn.LayerProps.C39_pool2D_high_refuted",
    "Snn.LayerProps.C39_pool2D_partial",
    "Snn.LayerProps.C39_pool2D_wide_refuted"
   ],
   "note": "1D with one channel and 2D with as many tiles in x as in y: full (forward, training, errors). Refuted for several channels in 1D and unequal numbers of tiles in 2D."
  },
  {
   "property": "C40",
   "status": "partial",
   "theorems": [
    "Snn.GradProps.C40_bias_refuted",
    "Snn.GradProps.C40_first_step_partial",
    "Snn.GradProps.C40_gradient_partial",
    "Snn.GradProps.C40_momentum_partial",
    "Snn.LocalBackProps.C40_locally1D_refuted"
   ],
   "note": "Every weight but those of the biases, for networks of dense, locally connected and pooling layers of any depth after every history, over the reals; refuted for the weights of the biases (assigned instead of incremented). C40_locally1D_refuted: a locally connected layer in one dimension with several filters, not the first layer, sends the errors to the wrong inputs."
  },
  {
   "property": "C41",
   "status": "partial",
   "theorems": [
    "Snn.NeuronSpec.C41_bias_refuted",
    "Snn.NeuronSpec.C41_first_round_partial",
    "Snn.NeuronSpec.C41_momentum_partial"
   ],
   "note": "Input weights full; refuted for the bias weight."
  },
  {
   "property": "C42",
   "status": "partial",
   "theorems": [
    "Snn.NeuronSpec.C42_bias_never_trained_refuted",
    "Snn.NeuronSpec.C42_update_partial"
   ],
   "note": "Exact update of each weight; refuted: the bias weight never changes and its increment goes to the recurrent weight."
  },
  {
   "property": "C43",
   "status": "partial",
   "theorems": [
    "Snn.ConvProps.C43_first_layer_refuted",
    "Snn.ConvProps.C43_replay_partial",
    "Snn.ConvProps.C43_rows1D",
    "Snn.ConvProps.C43_rows2D",
    "Snn.ConvProps.C43_rows_kept"
   ],
   "note": "Proved for every convolution that is not the first layer, after every history; refuted for a convolution as first layer."
  },
  {
   "property": "C44",
   "status": "partial",
   "theorems": [
    "Snn.ActivationSpec.C44_derivative_partial",
    "Snn.ActivationSpec.C44_functions",
    "Snn.ActivationSpec.C44_gelu_range_refuted",
    "Snn.ActivationSpec.C44_get",
    "Snn.ActivationSpec.C44_iSigmoid_refuted",
    "Snn.ActivationSpec.C44_range_partial",
    "Snn.FloatProps.C44_float_range_partial"
   ],
   "note": "Derivatives: all but the improved sigmoid (refuted). Ranges: all but GELU (refuted). Over the reals; ranges also on IEEE binary32."
  },
  {
   "property": "C45",
   "status": "proved",
   "theorems": [
    "Snn.FloatProps.C45_float",
    "Snn.LayerOptProps.C45_distribution",
    "Snn.LayerOptProps.C45_layer",
    "Snn.LayerOptProps.C45_layer_training",
    "Snn.LayerOptProps.C45_nan_refuted",
    "Snn.LayerOptProps.C45_softmax_value"
   ],
   "note": "Full over the reals; on IEEE binary32 outputs in [0,1] in the order of the raw outputs. The NaN theorem documents what happens to outputs that are not numbers, which the statement excludes."
  },
  {
   "property": "C46",
   "status": "partial",
   "theorems": [
    "Snn.LayerOptProps.C46_convolution_refuted",
    "Snn.LayerOptProps.C46_dropout_partial"
   ],
   "note": "Full for layers with one neuron by output; refuted for convolutions, where outputs beyond the number of filters are never dropped."
  },
  {
   "property": "C47",
   "status": "partial",
   "theorems": [
    "Snn.LayerOptProps.C47_average_refuted",
    "Snn.LayerOptProps.C47_errors_partial"
   ],
   "note": "Exact effect; refuted: the sum of the weights is divided by the number of neurons, so it is not an average."
  },
  {
   "property": "C48",
   "status": "partial",
   "theorems": [
    "Snn.GruLayerProps.C48_layer_continued_partial",
    "Snn.GruLayerProps.C48_layer_new_partial",
    "Snn.NeuronSpec.C48_bounded_partial",
    "Snn.NeuronSpec.C48_previous_output_refuted",
    "Snn.NeuronSpec.C48_witness_refuted"
   ],
   "note": "Bound and convex combination full over the reals; refuted: the previous output of the blend is always 0. Layer level: the outputs on every sequence are those of the gated recurrence with keep = 0, new or after any use (missing: keep(h) = h, which the code does not do)."
  },
  {
   "property": "C49",
   "status": "partial",
   "theorems": [
    "Snn.ArchProps.C49_accepted_if",
    "Snn.ArchProps.C49_accepted_only_if",
    "Snn.ArchProps.C49_overflow_refuted",
    "Snn.ArchProps.C49_rejected",
    "Snn.SafeProps.C49_kernel_zero_refuted",
    "Snn.SafeProps.C49_negative_shape_refuted",
    "Snn.SafeProps.C49_no_filter_refuted"
   ],
   "note": "Acceptance implies well formed, malformed implies throw, well formed implies acceptance; refuted for negative shapes (accepted), kernel size 0 and 0 filters (division by zero), and shapes with more than 2^31-1 values (C49_overflow_refuted: the product compared with the limit overflows first)."
  },
  {
   "property": "C50",
   "status": "partial",
   "theorems": [
    "Snn.InferenceProps.C50_cluster_partial",
    "Snn.InferenceProps.C50_floor_refuted",
    "Snn.InferenceProps.C50_witness_refuted"
   ],
   "note": "Proved when some output exceeds -2, the start value of the search; otherwise -1 is returned (refuted)."
  },
  {
   "property": "C51",
   "status": "proved",
   "theorems": [
    "Snn.NeuronSpec.C51_setWeights"
   ],
   "note": "Full, every carrier."
  },
  {
   "property": "C52",
   "status": "partial",
   "theorems": [
    "Snn.Tools.C52_flatten2",
    "Snn.Tools.C52_flatten3_partial",
    "Snn.Tools.C52_roughenZ_refuted"
   ],
   "note": "2D full; 3D index, x and y full; roughenZ refuted."
  },
  {
   "property": "C53",
   "status": "partial",
   "theorems": [
    "Snn.Tools.C53_const_size",
    "Snn.Tools.C53_extrema_partial",
    "Snn.Tools.C53_flatten",
    "Snn.Tools.C53_random_partial",
    "Snn.Tools.C53_random_refuted",
    "Snn.Tools.C53_random_vector",
    "Snn.Tools.C53_singleton_refuted"
   ],
   "note": "Extrema from two elements on, flatten, toConstSizeString, randomVector; refuted for vectors of one element and for randomBetween with max <= 0."
  },
  {
   "property": "C54",
   "status": "partial",
   "theorems": [
    "Snn.VisualProps.C54_convolution_refuted",
    "Snn.VisualProps.C54_locally_partial",
    "Snn.VisualProps.C54_locally_refuted",
    "Snn.VisualProps.C54_pool_refuted"
   ],
   "note": "Pixel places proved (in bounds, one pixel per value) for every locally connected layer; that picture f shows the weights of filter f is refuted: convolutions and max poolings read neurons that do not exist, locally connected layers read neuron n*(f+1)."
  },
  {
   "property": "C55",
   "status": "partial",
   "theorems": [
    "Snn.ValidProps.C55_constructor_partial",
    "Snn.ValidProps.C55_ignores_layer_optimizers",
    "Snn.ValidProps.C55_layer_optimizers_refuted",
    "Snn.ValidProps.C55_nan_refuted",
    "Snn.ValidProps.C55_reports_partial",
    "Snn.ValidProps.C55_zero_partial"
   ],
   "note": "Exact report (first violated rule) for every reachable network over any ordered field; refuted for NaN parameters and for layer optimizers (dropout rates), which isValid never looks at."
  },
  {
   "property": "C56",
   "status": "partial",
   "theorems": [
    "Snn.ConvProps.C56_errors_partial",
    "Snn.ConvProps.C56_first_position_partial",
    "Snn.ConvProps.C56_one_position_partial",
    "Snn.ConvProps.C56_slope_refuted",
    "Snn.ConvProps.C56_weights_refuted"
   ],
   "note": "The exact errors sent back, for every reachable inner convolution; they are those of the gradient for one position, and refuted in general (derivative of the last position, weights already updated)."
  },
  {
   "property": "C57",
   "status": "proved",
   "theorems": [
    "Snn.FloatProps.C57_float_evaluate",
    "Snn.OrderProps.C57_evaluate",
    "Snn.OrderProps.C57_nan_refuted",
    "Snn.StatSpec.C57_order_independent"
   ],
   "note": "Full: all confusion counts and every derived statistic, for evaluate of a whole network without recurrent layers, in every state, in exact arithmetic; on IEEE binary32 all confusion counts and the three rates bit for bit. The NaN theorem documents why the statement asks for outputs that are numbers."
  },
  {
   "property": "C58",
   "status": "partial",
   "theorems": [
    "Snn.CountProps.C58_accuracy_refuted",
    "Snn.CountProps.C58_exact_partial",
    "Snn.CountProps.C58_stuck_refuted"
   ],
   "note": "Exact up to 2^24 examples on binary32 (round to nearest even); every counter then stays at 2^24 and the accuracy is wrong, for every longer test."
  },
  {
   "property": "C59",
   "status": "proved",
   "theorems": [
    "Snn.SafeProps.C59_histories_return",
    "Snn.SafeProps.C59_last_convolution_refuted",
    "Snn.SafeProps.C59_training_is_safe"
   ],
   "note": "Full for architectures whose last layer has neurons (the statement's own restriction); C59_last_convolution_refuted documents the excluded case."
  },
  {
   "property": "C60",
   "status": "partial",
   "theorems": [
    "Snn.AutoSaveProps.C60_autosaved_refuted",
    "Snn.AutoSaveProps.C60_marked"
   ],
   "note": "Refuted for every auto-save: the file says 'training'."
  },
  {
   "property": "C61",
   "status": "partial",
   "theorems": [
    "Snn.AlikeProps.C61_equal_outputs_partial",
    "Snn.AlikeProps.C61_equal_outputs_refuted"
   ],
   "note": "Proved for networks of one architecture, after any history; refuted in general because == ignores layer optimizers of the right operand."
  },
  {
   "property": "C62",
   "status": "proved",
   "theorems": [
    "Snn.AsyncProps.C62_train_is_sequential"
   ],
   "note": "Full."
  },
  {
   "property": "C63",
   "status": "partial",
   "theorems": [
    "Snn.AsyncProps.C63_stale_epoch_refuted",
    "Snn.AsyncProps.C63_waitFor_epochs_partial"
   ],
   "note": "Proved for the first training of a network; refuted for later ones (the epoch number of the last training is still visible)."
  },
  {
   "property": "C64",
   "status": "proved",
   "theorems": [
    "Snn.LayerOutputsProps.C64_cut",
    "Snn.LayerOutputsProps.C64_last",
    "Snn.VisualProps.C64_input_bitmap",
    "Snn.VisualProps.C64_outputs_bitmap",
    "Snn.VisualProps.C64_two_channels_refuted"
   ],
   "note": "Full; C64_two_channels_refuted documents the excluded case of two channels, which reads out of bounds."
  },
  {
   "property": "C65",
   "status": "partial",
   "theorems": [
    "Snn.LeakProps.C65_nan_refuted",
    "Snn.LeakProps.C65_no_leak_partial",
    "Snn.LeakProps.C65_recurrent_refuted"
   ],
   "note": "Proved for every feedforward architecture and every pair of histories without NaN; refuted for recurrent networks (an inference changes what the next training learns) and for a NaN in the testing set (no training takes place)."
  },
  {
   "property": "C66",
   "status": "proved",
   "theorems": [
    "Snn.AccuracyProps.C66_accuracy"
   ],
   "note": "Full, every ordered field."
  },
  {
   "property": "C67",
   "status": "proved",
   "theorems": [
    "Snn.AccuracyProps.C67_evaluate_again"
   ],
   "note": "Full, every ordered field."
  },
  {
   "property": "C68",
   "status": "proved",
   "theorems": [
    "Snn.StructProps.C68_optimizer",
    "Snn.StructProps.C68_structure"
   ],
   "note": "Full, every carrier."
  },
  {
   "property": "C69",
   "status": "partial",
   "theorems": [
    "Snn.StructProps.C69_counts_exist",
    "Snn.StructProps.C69_neurons",
    "Snn.StructProps.C69_parameters_partial",
    "Snn.StructProps.C69_parameters_refuted"
   ],
   "note": "Neurons, layers and inputs full; parameters proved up to the largest int and refuted beyond (the int sum overflows for 50000 inputs and 50000 dense neurons, which the constructor accepts)."
  },
  {
   "property": "C70",
   "status": "partial",
   "theorems": [
    "Snn.SummaryProps.C70_locally_refuted",
    "Snn.SummaryProps.C70_recurrent_refuted",
    "Snn.SummaryProps.C70_summary_partial",
    "Snn.SummaryProps.C70_text_exists"
   ],
   "note": "Proved as an equality of texts for dense, convolution and pooling layers and recurrent layers with as many neurons as inputs. Refuted for recurrent and GRU layers (input and output shapes are swapped) and for locally connected layers (title without line break, unaligned labels); the parameter count overflows beyond 2^31-1 (C69)."
  },
  {
   "property": "C71",
   "status": "proved",
   "theorems": [
    "Snn.CounterProps.C71_copy_load",
    "Snn.CounterProps.C71_counter",
    "Snn.CounterProps.C71_from_new"
   ],
   "note": "Proved for every history of calls, plus copies and loads."
  },
  {
   "property": "C72",
   "status": "proved",
   "theorems": [
    "Snn.RangeProps.C72_cluster",
    "Snn.RangeProps.C72_range",
    "Snn.RangeProps.C72_softmax"
   ],
   "note": "Exact real arithmetic; every history (Reach). Pooling layers after the last layer of neurons or filters are allowed in C72_range. The class (C72_cluster) needs a last layer of neurons, because of finding 3."
  },
  {
   "property": "C73",
   "status": "partial",
   "theorems": [
    "Snn.LogProps.C73_accuracy_lines",
    "Snn.LogProps.C73_evaluate_partial",
    "Snn.LogProps.C73_evaluate_refuted",
    "Snn.LogProps.C73_none_prints_nothing",
    "Snn.LogProps.C73_progress",
    "Snn.LogProps.C73_times",
    "Snn.LogProps.C73_train"
   ],
   "note": "True of train for all levels and clocks. False of the public evaluate(data) at a visible level (null pointer), see C73_evaluate_refuted. Lines are structured values; their text is not modelled. C73_times: the times shown by the lines (the progress is shown at most every 100 ms, the accuracy lines add up to the time since the start)."
  },
  {
   "property": "C74",
   "status": "partial",
   "theorems": [
    "Snn.CountersProps.C74_after_train_partial",
    "Snn.CountersProps.C74_between",
    "Snn.CountersProps.C74_epoch_refuted",
    "Snn.CountersProps.C74_index_refuted",
    "Snn.CountersProps.C74_set_get_partial",
    "Snn.CountersProps.C74_setter_refuted"
   ],
   "note": "getCurrentEpoch is one more than the number of epochs made; the setter is overwritten by every train; getCurrentIndex is not reset by evaluate(data)."
  },
  {
   "property": "C75",
   "status": "proved",
   "theorems": [
    "Snn.ElmanProps.C75_continued",
    "Snn.ElmanProps.C75_new"
   ],
   "note": "Full, for a new layer and after any use."
  },
  {
   "property": "C76",
   "status": "proved",
   "theorems": [
    "Snn.LocalProps.C76_convolution1D",
    "Snn.LocalProps.C76_convolution2D",
    "Snn.LocalProps.C76_locally1D"
   ],
   "note": "Full for Convolution1D, Convolution2D and LocallyConnected1D (2D locally connected layers are C38, refuted there)."
  },
  {
   "property": "C77",
   "status": "proved",
   "theorems": [
    "Snn.NeutralProps.C77_neutral"
   ],
   "note": "Full, exact arithmetic; whole programs by a simulation between the two networks."
  },
  {
   "property": "C78",
   "status": "proved",
   "theorems": [
    "Snn.FullKernelProps.C78_covering"
   ],
   "note": "Full, every arithmetic."
  },
  {
   "property": "C79",
   "status": "proved",
   "theorems": [
    "Snn.FullBatchProps.C79_full_batch"
   ],
   "note": "two-run simulation of the whole of train; exact arithmetic"
  },
  {
   "property": "C80",
   "status": "partial",
   "theorems": [
    "Snn.FullBatchProps.C80_gradient_refuted",
    "Snn.FullBatchProps.C80_mean_example_partial"
   ],
   "note": "refuted for the code: a batch step is exactly one step on the mean example (C80_mean_example_partial, all networks); a centred batch of a linear neuron does not move its slope (C80_gradient_refuted)"
  },
  {
   "property": "C81",
   "status": "proved",
   "theorems": [
    "Snn.InitProps.C81_bounds",
    "Snn.InitProps.C81_draws"
   ],
   "note": "positions of the draws strictly increasing over the whole network (any arithmetic); bounds over the reals"
  },
  {
   "property": "C82",
   "status": "partial",
   "theorems": [
    "Snn.RatesProps.C82_found_refuted",
    "Snn.RatesProps.C82_rates_partial"
   ],
   "note": "C82_rates_partial: weighted rate = mean recall, F1 = mean of 2\u00b7hits/(predicted+support), mae = mean absolute error, for every feedforward network, any history, exact arithmetic, non-temporal data. C82_found_refuted: every example classified right (accuracy 1) but weighted rate and F1 are 0, since the rates use the separator and not the argmax."
  },
  {
   "property": "C83",
   "status": "partial",
   "theorems": [
    "Snn.CrashProps.C83_autosave_refuted",
    "Snn.CrashProps.C83_complete",
    "Snn.CrashProps.C83_lost_refuted",
    "Snn.CrashProps.C83_no_mixture_partial"
   ],
   "note": "C83_no_mixture_partial: after a crash at any byte loadFrom answers as at some moment between two saves, or throws, or gives the complete new network (at most numberOfTrainingsBetweenTwoEvaluations different). C83_lost_refuted / C83_autosave_refuted: the save empties the file first, so a crash can lose both networks. Every carrier."
  },
  {
   "property": "C84",
   "status": "partial",
   "theorems": [
    "Snn.PerfectProps.C84_answer_partial",
    "Snn.PerfectProps.C84_bias_refuted",
    "Snn.PerfectProps.C84_perfect_partial",
    "Snn.PerfectProps.C84_unlearn_refuted"
   ],
   "note": "For every reachable feedforward network that ends with neurons, without L1/L2 and with momentum 0, trainOnce on its own answers leaves every weight but the bias weights unchanged (C84_perfect_partial, C84_answer_partial). Refuted as stated: the bias weight is assigned and not updated, so the step sets every bias weight to 0 (C84_bias_refuted, in every case) and the network then answers differently (C84_unlearn_refuted)."
  },
  {
   "property": "C85",
   "status": "partial",
   "theorems": [
    "Snn.SplitProps.C85_any_partial",
    "Snn.SplitProps.C85_fresh_data_refuted",
    "Snn.SplitProps.C85_recurrent_refuted",
    "Snn.SplitProps.C85_resume_evaluated_partial",
    "Snn.SplitProps.C85_resume_partial",
    "Snn.SplitProps.C85_split_partial"
   ],
   "note": "Proved for feedforward networks with any evaluation frequencies, any history before and any pause without training (C85_split_partial), also through a file (C85_resume_evaluated_partial); and for every network, recurrent included, in every state when nothing is evaluated or inferred (C85_any_partial, C85_resume_partial). The criterion N_ep is shown to last N epochs (lasts_ep). Refuted: recurrent networks that are evaluated (C85_recurrent_refuted), and data made anew instead of kept (C85_fresh_data_refuted)."
  },
  {
   "property": "C86",
   "status": "partial",
   "theorems": [
    "Snn.SoftProps.C86_bias_refuted",
    "Snn.SoftProps.C86_cross_entropy_partial"
   ],
   "note": "Real arithmetic. C86_cross_entropy_partial: every weight but those of the biases. C86_bias_refuted: the weight of a bias is replaced by minus the learning rate times the partial derivative (StochasticGradientDescent.cpp:37)."
  },
  {
   "property": "C87",
   "status": "partial",
   "theorems": [
    "Snn.Converge.C87_momentum_partial",
    "Snn.Converge.C87_momentum_refuted",
    "Snn.ConvergeProps.C87_great_refuted",
    "Snn.ConvergeProps.C87_learned_partial",
    "Snn.ConvergeProps.C87_speed_partial",
    "Snn.ConvergeProps.C87_zero_refuted"
   ],
   "note": "Real arithmetic. C87_learned_partial, C87_speed_partial: geometric convergence without momentum for inputs that are not 0 and learning rates below 1/(|x|^2+2). C87_momentum_partial: with any momentum m from 0 to 1, convergence for learning rates below (1+m)/(|x|^2+2); C87_momentum_refuted: this bound is sharp. C87_zero_refuted: an input 0 (only the bias can learn) is never learned, whatever the learning rate, because the bias weight is replaced instead of updated. C87_great_refuted: learning rates from 1/(|x|^2+2) on do not converge. Hidden layers and other activation functions are missing."
  },
  {
   "property": "C88",
   "status": "proved",
   "theorems": [
    "Snn.PrecisionProps.C88_accuracy",
    "Snn.PrecisionProps.C88_class"
   ],
   "note": "Proved on the binary32 carrier: rounding to nearest even, subnormals, overflow. FP contraction (fused multiply-add) and wider intermediate registers, that a compiler may choose, are not modelled. Activation functions with exponentials are not covered: their accuracy is the one of libm."
  },
  {
   "property": "C89",
   "status": "partial",
   "theorems": [
    "Snn.LabelProps.C89_counts_partial",
    "Snn.LabelProps.C89_positions_partial",
    "Snn.LabelProps.C89_shuffled_refuted",
    "Snn.LabelProps.C89_testing",
    "Snn.LabelProps.C89_unshuffled_partial"
   ],
   "note": "False of shuffled training data (C89_shuffled_refuted): getTrainingLabel does not go through the shuffled order. Proved: the testing set, training data not shuffled, unshuffled or sequential, and the counts of the labels for all histories."
  },
  {
   "property": "C90",
   "status": "proved",
   "theorems": [
    "Snn.RobustProps.C90_class",
    "Snn.RobustProps.C90_continuous",
    "Snn.RobustProps.C90_robust"
   ],
   "note": "Real arithmetic; recurrent layers excluded by hypothesis; the class theorem needs the winning output above the floor -2 of C50."
  },
  {
   "property": "C91",
   "status": "partial",
   "theorems": [
    "Snn.AccessProps.C91_flags",
    "Snn.AccessProps.C91_reads",
    "Snn.AccessProps.C91_writes",
    "Snn.RaceProps.C91_destroyed_refuted",
    "Snn.RaceProps.C91_stop_refuted",
    "Snn.RaceProps.C91_wait_refuted",
    "Snn.RaceProps.C91_weights_partial"
   ],
   "note": "The full statement is false: wantToStopTraining, isIdle and the results read by waitFor are plain members; every execution in which a training thread is joined has a data race on wantToStopTraining (C91_stop_refuted), hence every execution that destroys a network that was trained asynchronously (C91_destroyed_refuted), and every turn of waitFor races on the epoch (C91_wait_refuted). Proved: no execution ever races on the weights, the memories, the indexes of the data, the loop counters and the generators (C91_weights_partial). The accesses of the other calls (computeOutput, ...) during a training are not modelled. The list of the memory accesses of every action of a training is checked against what the action does: what is not listed as written does not change (C91_writes), and what is not listed has no effect (C91_reads)."
  },
  {
   "property": "C92",
   "status": "partial",
   "theorems": [
    "Snn.TwoNetsProps.C92_generator_refuted",
    "Snn.TwoNetsProps.C92_shuffles_refuted",
    "Snn.TwoNetsProps.C92_two_networks_partial"
   ],
   "note": "The full statement is false: the generators of Tools.hpp are shared by all the networks; as soon as both networks have drawn from the same one, there is a data race (C92_generator_refuted), e.g. when both begin an epoch on data of the same kind (C92_shuffles_refuted). Proved: each network goes only through states it reaches alone, and every race on a member of a network is one it has alone, never on its weights, data or counters (C92_two_networks_partial)."
  },
  {
   "property": "C93",
   "status": "partial",
   "theorems": [
    "Snn.GruTrainProps.C93_output_gate_partial",
    "Snn.GruTrainProps.C93_reset_gate_refuted",
    "Snn.GruTrainProps.C93_reset_gates_of_networks_refuted",
    "Snn.GruTrainProps.C93_update_gate_refuted"
   ],
   "note": "Proved for the output gate: in every round each weight of an input moves along the derivative of the answer, after any calls. Refuted for the update gate (the error it receives is e*candidate + e*z, the derivative of z*candidate is the candidate) and for the reset gate: it never learns, in any unit of any network, through any history (its error is multiplied by previousOutput, which is always 0), although the answer depends on it."
  },
  {
   "property": "C94",
   "status": "partial",
   "theorems": [
    "Snn.ChanceProps.C94_convolution_refuted",
    "Snn.ChanceProps.C94_law",
    "Snn.ChanceProps.C94_mean_partial",
    "Snn.ChanceProps.C94_witness_refuted"
   ],
   "note": "C94_mean_partial: for every network a program can hold whose layers are any layers without dropout, one layer of neurons (fully connected, recurrent or gated) with any activation and linear layers, the mean of the outputs of training is the output of computeOutput; C94_law: the exact law of the set of silenced positions. Refuted for convolution layers (C94_convolution_refuted, every case; C94_witness_refuted): positions from the number of filters on are never silenced but are scaled in inference. Missing: locally connected layers as the first layer with a dropout."
  },
  {
   "property": "C95",
   "status": "partial",
   "theorems": [
    "Snn.C95_fair_partial",
    "Snn.C95_sequential_refuted",
    "Snn.C95_time_series_partial"
   ],
   "note": "Non-temporal data and time series: exact probability of every order, after any history (the law of the draws is that of an ideal generator; the Fisher-Yates algorithm of the C++ library is modelled). Sequential data: refuted, the order never changes."
  },
  {
   "property": "C96",
   "status": "proved",
   "theorems": [
    "Snn.FadeProps.C96_forgets",
    "Snn.FadeProps.C96_forgotten",
    "Snn.FadeProps.C96_new",
    "Snn.SharpFade.C96_sharp"
   ],
   "note": "Over the reals. The rate rho is any number above the greatest feedback of the network; the constant C depends on the two pasts and the weights, not on the common sequence. C96_sharp: for one layer of recurrent linear neurons the difference of the answers is exactly the power of the recurrent weight, so no better rate and no weaker condition is possible."
  },
  {
   "property": "C97",
   "status": "partial",
   "theorems": [
    "Snn.SmallProps.C97_decrease_partial",
    "Snn.SmallProps.C97_increase_refuted",
    "Snn.SmallProps.C97_limit",
    "Snn.SmallProps.C97_refuted"
   ],
   "note": "Refuted for the code: because the weight of the bias is assigned instead of updated (StochasticGradientDescent.cpp:37), C97_limit shows that the error after the first step tends, as the learning rate tends to 0, to the error of the network whose biases are ignored (within C times the rate). C97_increase_refuted / C97_refuted: whenever the biases matter for the outputs, there are expected outputs for which every small enough rate multiplies the error by more than 8. C97_decrease_partial: the error becomes smaller whenever it is smaller without biases."
  },
  {
   "property": "C98",
   "status": "partial",
   "theorems": [
    "Snn.OnlineProps.C98_constant_refuted",
    "Snn.OnlineProps.C98_mistakes_partial",
    "Snn.OnlineProps.C98_regret_partial"
   ],
   "note": "Over the reals, momentum 0, 4*eta*(|x|^2+4*eta) <= 1. Proved for rules without constant term (factor 4). Refuted for rules with a constant term (C98_constant_refuted: for every network the sum of the errors on the example 0 -> 1 grows without bound), because the weight of the bias is assigned (StochasticGradientDescent.cpp:37)."
  },
  {
   "property": "C99",
   "status": "partial",
   "theorems": [
    "Snn.OnlineProps.C99_constant_refuted",
    "Snn.OnlineProps.C99_learned_partial",
    "Snn.OnlineProps.C99_speed_partial"
   ],
   "note": "Over the reals, momentum 0, batches of one example, non-temporal or sequential data, 4*eta*(|x|^2+4*eta) <= 1. Proved for training sets explained by a rule without constant term, with a rate that depends only on the inputs and the learning rate. Refuted for rules with a constant term (C99_constant_refuted, every network, every learning rate)."
  },
  {
   "property": "C100",
   "status": "partial",
   "theorems": [
    "Snn.OverflowProps.C100_epochs_refuted",
    "Snn.OverflowProps.C100_index_refuted",
    "Snn.OverflowProps.C100_no_overflow_partial",
    "Snn.OverflowProps.C100_refines",
    "Snn.OverflowProps.C100_usual_partial"
   ],
   "note": "Every outcome with int counters is the outcome of the unbounded model or a signed overflow (C100_refines), and there is no overflow when (floor(n/b)+1)*b and the epoch after the last are ints; in particular for less than 2^30 examples and 2^31-1 epochs. False otherwise: C100_index_refuted, C100_epochs_refuted."
  },
  {
   "property": "C101",
   "status": "partial",
   "theorems": [
    "Snn.BitmapProps.C101_input_partial",
    "Snn.BitmapProps.C101_outputs_partial",
    "Snn.BitmapProps.C101_range_refuted",
    "Snn.BitmapProps.C101_training",
    "Snn.BitmapProps.C101_weight_colours",
    "Snn.BitmapProps.C101_weights_partial",
    "Snn.BitmapProps.C101_wide_refuted"
   ],
   "note": "Partial: proved for values in [0, 1] and pictures whose width is below 21845 pixels and height below 65535 (outputs, inputs, weights of locally connected layers; exact arithmetic for the colours); refuted for values with 255 v <= -1 or >= 256 (conversion to unsigned char undefined) and for wider pictures (the size in the header is cut by the mask 0x0000FFFC)."
  },
  {
   "property": "C102",
   "status": "proved",
   "theorems": [
    "Snn.BoundedProps.C102_finite",
    "Snn.BoundedProps.C102_linear_overflows",
    "Snn.BoundedProps.C102_subnormal_flag"
   ],
   "note": "C102_finite; tanh and sqrt are any functions with the two laws TanhLaw (results are binary32 values in [-1, 1]) and SqrtLaw (the root of a value of at least 1 is at least 1). C102_linear_overflows: with the identity as activation the same hypotheses do not prevent overflow. C102_subnormal_flag: with a hyperbolic tangent as last layer isNan() can be true although every value is finite (a subnormal output)."
  },
  {
   "property": "C103",
   "status": "partial",
   "theorems": [
    "Snn.RaceCallsProps.C103_call_refuted",
    "Snn.RaceCallsProps.C103_overlap_refuted",
    "Snn.RaceCallsProps.C103_reads",
    "Snn.RaceCallsProps.C103_save_refuted",
    "Snn.RaceCallsProps.C103_weights_partial",
    "Snn.RaceCallsProps.C103_writes"
   ],
   "note": "The full statement is false. Every accepted call that touches the weights while a thread that has begun to learn is not joined races on them (C103_call_refuted; in general C103_overlap_refuted), and the test of isIdle does not protect saveAs: right after startTrainingAsync it is accepted for every network, because the thread has not yet set the flag (C103_save_refuted). Proved: a client that only watches the training (isTraining, hasNan, results, epoch) until the thread is joined has no race on the weights, the data, the loop counters and the generators (C103_weights_partial); the list of the accesses of each call is checked against what it does: it changes only what is listed as written (C103_writes), and its answer, exception, file and effect depend only on what is listed (C103_reads)."
  },
  {
   "property": "C104",
   "status": "proved",
   "theorems": [
    "Snn.NewNetProps.C104_settings",
    "Snn.NewNetProps.C104_unmeasured"
   ],
   "note": "Proved for every carrier (C104_unmeasured, C104_settings), over the calls of Model/RaceCalls."
  },
  {
   "property": "C105",
   "status": "proved",
   "theorems": [
    "Snn.LinearProps.C105_classes",
    "Snn.LinearProps.C105_hidden_enough",
    "Snn.LinearProps.C105_multiple",
    "Snn.LinearProps.C105_one_layer",
    "Snn.LinearProps.C105_xor",
    "Snn.LinearProps.C105_xor_classes"
   ],
   "note": "Proved on the reals (exact arithmetic). C105_one_layer: one affine form per output after every history; C105_multiple, C105_classes: accuracy 1 implies that planes separate; C105_xor, C105_xor_classes: at most 3/4 on the exclusive or, with linear hidden layers (dropout, L1, L2 included) and the activations sigmoid, improved sigmoid, tanh, identity (and ReLU for one output compared with the separator)."
  },
  {
   "property": "C106",
   "status": "partial",
   "theorems": [
    "Snn.SilentProps.C106_bias_refuted",
    "Snn.SilentProps.C106_fresh",
    "Snn.SilentProps.C106_silent_partial",
    "Snn.SilentProps.C106_zero"
   ],
   "note": "Exact arithmetic, any ordered field. C106_fresh: from a new network, full claim up to the weight of the bias, which training sets to 0. C106_silent_partial: after any history, when the neuron is silent with and without its bias. C106_zero: it keeps answering 0. C106_bias_refuted: without the second condition the claim is false, because the first training step assigns 0 to the weight of the bias and can revive the neuron."
  },
  {
   "property": "C107",
   "status": "partial",
   "theorems": [
    "Snn.DeadlineProps.C107_limits",
    "Snn.DeadlineProps.C107_not_early",
    "Snn.DeadlineProps.C107_prompt_partial",
    "Snn.DeadlineProps.C107_returns_partial",
    "Snn.DeadlineProps.C107_steps_partial",
    "Snn.DeadlineProps.C107_wrap_refuted"
   ],
   "note": "Full statement refuted: the elapsed milliseconds are converted to int (Wait.cpp:67), so the limit is missed when the check comes 2^31 ms after the start (C107_wrap_refuted). Proved for trainings shorter than that, for every network, data, clock and criterion that contains the limit."
  },
  {
   "property": "C108",
   "status": "proved",
   "theorems": [
    "Snn.GoalProps.C108_best",
    "Snn.GoalProps.C108_goal",
    "Snn.GoalProps.C108_requests"
   ],
   "note": "Exact arithmetic. C108_requests shows which criteria are meant."
  },
  {
   "property": "C109",
   "status": "proved",
   "theorems": [
    "Snn.ExampleProps.C109_classification_returns",
    "Snn.ExampleProps.C109_classification_success",
    "Snn.ExampleProps.C109_multiple_returns",
    "Snn.ExampleProps.C109_multiple_success",
    "Snn.ExampleProps.C109_readme_accuracy",
    "Snn.ExampleProps.C109_readme_returns",
    "Snn.ExampleProps.C109_recurrence_returns",
    "Snn.ExampleProps.C109_recurrence_success",
    "Snn.ExampleProps.C109_regression_returns",
    "Snn.ExampleProps.C109_regression_success"
   ],
   "note": "Exact arithmetic: termination over the reals, the meaning of success over every ordered field. For the recurrent example success is only what the evaluation reported (recurrent networks answer differently after another history, C28)."
  },
  {
   "property": "C110",
   "status": "partial",
   "theorems": [
    "Snn.BackProps.C110_gru_partial",
    "Snn.BackProps.C110_gru_refuted",
    "Snn.BackProps.C110_recurrent_partial"
   ],
   "note": "True of recurrent neurons (differentiable activations). False of gated units: exact criterion, for every reachable unit, of when the error sent is the gradient (C110_gru_partial); a new unit never sends the gradient for an input whose update weight is not 0 (C110_gru_refuted)."
  },
  {
   "property": "C111",
   "status": "partial",
   "theorems": [
    "Snn.Shared.C111_content_partial",
    "Snn.Shared.C111_evaluation_partial",
    "Snn.Shared.C111_order_refuted",
    "Snn.Shared.C111_sequences_partial",
    "Snn.Shared.C111_series_refuted",
    "Snn.Shared.C111_unshuffled_partial"
   ],
   "note": "Proved for every carrier: content and evaluations for all natures; trainings on sequential data; trainings on non-temporal data after unshuffle(). Refuted: non-temporal without unshuffle() (the order left by the previous training is shuffled again), time series even with unshuffle() (the offset stays)."
  },
  {
   "property": "C112",
   "status": "proved",
   "theorems": [
    "Snn.Threshold.C112_both_ways",
    "Snn.Threshold.C112_multiple",
    "Snn.Threshold.C112_precision",
    "Snn.Threshold.C112_separator"
   ],
   "note": "Over every linearly ordered field. The two evaluations run in lockstep with related statistics (any network, including recurrent and convolutional ones, and the stop on a NaN output). The F1 score is not monotone and not claimed."
  },
  {
   "property": "C113",
   "status": "proved",
   "theorems": [
    "Snn.Units.C113_constant",
    "Snn.Units.C113_constructors",
    "Snn.Units.C113_normalize"
   ],
   "note": "Construction for every carrier, normalization over every linearly ordered field. C113_constant shows why components must vary: a constant component is left in its units (finding of C08)."
  },
  {
   "property": "C114",
   "status": "proved",
   "theorems": [
    "Snn.ReorderProps.C114_feature_order",
    "Snn.ReorderProps.C114_rounded"
   ],
   "note": "Exact arithmetic (every linearly ordered field). C114_rounded shows with a binary32 witness why the claim is restricted: rounded sums depend on the order. Convolutions as the first layer are outside the claim (the place of a pixel matters)."
  },
  {
   "property": "C115",
   "status": "proved",
   "theorems": [
    "Snn.HiddenProps.C115_hidden_order"
   ],
   "note": "Exact arithmetic (every linearly ordered field). Hidden layers with dropout (the mask is drawn neuron by neuron) or softmax are outside the claim; the layer after it may have any layer optimizers."
  },
  {
   "property": "C116",
   "status": "proved",
   "theorems": [
    "Snn.OutOrderProps.C116_class",
    "Snn.OutOrderProps.C116_output_order",
    "Snn.OutOrderProps.C116_ties"
   ],
   "note": "Every history of calls, over every ordered field, with any problem except the classification (where ties go to the first output: C116_ties). C116_class: after those histories the predicted class is renamed by p whenever the largest output is reached once (C116_ties: with equal outputs it is not)."
  },
  {
   "property": "C117",
   "status": "proved",
   "theorems": [
    "Snn.PartsProps.C117_parts",
    "Snn.PartsProps.C117_repeated"
   ],
   "note": "Exact arithmetic (every linearly ordered field), non temporal data: C117_parts (accuracy and mean absolute error of a split), C117_repeated (all four figures)."
  },
  {
   "property": "C118",
   "status": "proved",
   "theorems": [
    "Snn.UnusedProps.C118_gru",
    "Snn.UnusedProps.C118_unused"
   ],
   "note": "C118_unused (fully connected or recurrent first layer) and C118_gru (gated first layer: each of the three gates): from the construction, through any history of fitting calls. Exact arithmetic (an ordered field); in binary32 the same holds while the products stay finite (an infinite error times 0 is a NaN)."
  },
  {
   "property": "C119",
   "status": "proved",
   "theorems": [
    "Snn.MultProps.C119_error_multiplier"
   ],
   "note": "Exact arithmetic (any ordered field): with 32-bit floats the products are rounded in another order. L1 and L2 are excluded because their term is added to the errors before the body and is then not multiplied by c."
  },
  {
   "property": "C120",
   "status": "partial",
   "theorems": [
    "Snn.FreezeProps.C120_bias_refuted",
    "Snn.FreezeProps.C120_frozen_partial"
   ],
   "note": "C120_frozen_partial: after any calls, with any momentum, every weight of the layer with the multiplier 0 and of the layers before it is the initial one, except the weight of the bias of every neuron of a layer that is not recurrent; recurrent and gated layers keep all their weights. C120_bias_refuted: a training step sets the weight of the bias of the frozen layer to 0, because the code assigns it instead of adding to it, so the full statement is false of the code. Over the exact arithmetic of any ordered field."
  }
 ]
}