{"id": "C01", "title": "Shuffling never loses or duplicates a training example", "statement": "For non-temporal data, after any sequence of Data::shuffle() and Data::unshuffle() calls, the training inputs read through getTrainingData(0..n-1) are a permutation of the training inputs given to the constructor, and right after unshuffle() they are in the original order.", "quantifier": "every number of examples, every list of shuffle/unshuffle calls, every outcome of the random generator", "why_tests_cant": "a test sees a handful of seeds and sizes; the claim ranges over every draw of the generator and every history of calls", "anchors": ["src/data/Data.cpp: Data::unshuffle, Data::getTrainingData", "src/data/CompositeForNonTemporalData.cpp: shuffle", "include/snn/data/Set.hpp"]}
{"id": "C02", "title": "Inputs and expected outputs stay paired through every shuffle", "statement": "For every history of shuffles, getTrainingData(i) and getTrainingOutputs(i) return the input and the expected output of one and the same example of the constructor's arguments.", "quantifier": "every data set of any nature, every history of shuffle/unshuffle, every index", "why_tests_cant": "pairing must survive every permutation the generator can produce", "anchors": ["src/data/Data.cpp: getTrainingData, getTrainingOutputs", "src/data/CompositeForTimeSeries.cpp: shuffle", "src/data/CompositeForTemporalData.cpp: shuffle"]}
{"id": "C03", "title": "A batch is the mean of its examples", "statement": "With batchSize b > 1, getTrainingData(i,b) is, component by component, the arithmetic mean of the b examples at positions i..i+b-1 of the current order, and getTrainingOutputs(i,b) the mean of their expected outputs; the previous content of the internal batch buffer never shows.", "quantifier": "every batch size, position, order, and previous use of the batch buffer", "why_tests_cant": "stale-buffer bugs depend on the history of earlier batches", "anchors": ["src/data/Data.cpp: getTrainingData, getTrainingOutputs"]}
{"id": "C04", "title": "One epoch visits every example at most once, in disjoint batches", "statement": "During one epoch of train() with batch size b on n examples, exactly floor(n/b) training steps are made, at positions 0, b, 2b, ...; every position below b*floor(n/b) is in exactly one batch and no batch reads past the end.", "quantifier": "every n and b", "why_tests_cant": "loop boundaries must be right for every size and batch size, not for the sampled ones", "anchors": ["src/neural_network/StraightforwardNeuralNetwork.cpp: trainSync"]}
{"id": "C05", "title": "Time-series shuffling keeps windows consecutive and eventually trains on every step", "statement": "For time series with R recurrences and n >= R+1 steps, after every shuffle: all positions read an existing step; every position that is trained on is either in the sequential prefix or the end of a window of R+1 consecutive steps whose first element is flagged as a new sequence; and over any R+1 consecutive shuffles every step is trained on at least once.", "quantifier": "every n, every R, every history of shuffles and every outcome of the generator", "why_tests_cant": "coverage is a property of whole runs of R+1 shuffles under every permutation", "anchors": ["src/data/CompositeForTimeSeries.cpp: shuffle, isFirstTrainingDataOfTemporalSequence, needToTrainOnTrainingData"]}
{"id": "C06", "title": "Sequential data keep sequence boundaries", "statement": "For sequential data made of non-empty sequences, the flattened training and testing sets contain the inputs in the given order, an index is flagged as first of a sequence exactly when it is the start of one of the given sequences, and a testing index is evaluated exactly when it ends one; no history of shuffle() and unshuffle() ever splits a sequence or separates it from its flags.", "quantifier": "every list of sequences of every length", "why_tests_cant": "boundaries are sums of arbitrary lengths", "anchors": ["src/data/Data.cpp: flatten, Data::Data(3D)", "src/data/CompositeForTemporalData.cpp"]}
{"id": "C07", "title": "Data accepted by the constructor can be read safely", "statement": "If the Data constructor returns, then for every index below the set sizes, reading an input and its expected output never accesses memory out of bounds, before and after any shuffles.", "quantifier": "every constructor argument, every history of shuffles, every index", "why_tests_cant": "the guard must cover every malformed input", "anchors": ["src/data/Data.cpp: Data::isValid, Data::initialize", "src/data/ProblemComposite.cpp", "src/data/CompositeForClassification.cpp"]}
{"id": "C08", "title": "normalize(min,max) maps training inputs into [min,max] and preserves order", "statement": "After normalize(min,max), every component of every training input is in [min,max], the same affine increasing map is applied to training and testing values of a component, and normalizing again with the same bounds changes nothing.", "quantifier": "every data set and every bounds", "why_tests_cant": "must hold for every column, including constant ones", "anchors": ["src/data/Data.cpp: normalize"]}
{"id": "C09", "title": "The class of a testing example is the first label equal to 1, and none is an error", "statement": "For classification data getTestingLabel(i) returns the smallest component whose expected value is 1 and throws when there is none.", "quantifier": "every label vector", "why_tests_cant": "for every label vector", "anchors": ["src/data/CompositeForClassification.cpp: getTestingLabel"]}
{"id": "C10", "title": "Thresholds only exist where the problem uses them", "statement": "setPrecision/getPrecision succeed only for regression and setSeparator/getSeparator only for (multiple) classification; otherwise they throw and change nothing; a value set is the value read back by the evaluation.", "quantifier": "every problem type and value", "why_tests_cant": "finite but history dependent (what was set before)", "anchors": ["src/data/Data.cpp: setPrecision, getPrecision, setSeparator, getSeparator"]}
{"id": "C11", "title": "Confusion counts are conserved", "statement": "After evaluating any sequence of N examples without NaN since startTesting, for each label the numbers of true/false positives/negatives sum to N, and well classified + misclassified = N.", "quantifier": "every sequence of evaluations of every length", "why_tests_cant": "must hold after every history of evaluations", "anchors": ["src/neural_network/StatisticAnalysis.cpp: evaluateOnceForRegression, evaluateOnceForMultipleClassification, evaluateOnceForClassification"]}
{"id": "C12", "title": "A classification is right exactly when the expected class has the largest output", "statement": "evaluate for classification counts an example as well classified iff the index of the first largest output is the expected class.", "quantifier": "every output vector and class", "why_tests_cant": "every vector of outputs, including very negative ones", "anchors": ["src/neural_network/StatisticAnalysis.cpp: evaluateOnceForClassification"]}
{"id": "C13", "title": "Reported rates are proportions", "statement": "After evaluating at least one example, the global clustering rate, the weighted clustering rate and the F1 score are numbers between 0 and 1, and the global rate is exactly well / total.", "quantifier": "every sequence of evaluations", "why_tests_cant": "0/0 cases depend on which classes occur", "anchors": ["src/neural_network/StatisticAnalysis.cpp: computeGlobalClusteringRate, computeWeightedClusteringRate, computeF1Score"]}
{"id": "C14", "title": "Best metrics are the running optimum over all evaluations", "statement": "After any sequence of evaluations, the best global and weighted clustering rates are the maximum, the best F1 score the maximum, and the best mean absolute error and root mean squared error the minimum, of the values measured so far; the 'better than ever' flag is raised exactly when the newest value strictly improves on all earlier ones.", "quantifier": "every sequence of evaluation results", "why_tests_cant": "history property of unbounded length", "anchors": ["src/neural_network/StatisticAnalysis.cpp: stopTesting"]}
{"id": "C15", "title": "Mean absolute error and RMSE are the textbook means", "statement": "For regression the reported mean absolute error is (sum of |output - expected|)/N over labels and the RMSE the root of the mean of squared errors.", "quantifier": "every sequence of evaluations", "why_tests_cant": "for every number of evaluations and labels", "anchors": ["src/neural_network/StatisticAnalysis.cpp: computeMeanAbsoluteError, computeRootMeanSquaredError"]}
{"id": "C16", "title": "a || b stops as soon as one criterion is met", "statement": "Wait combined by || from epoch, accuracy, MAE and duration literals is over iff at least one of the literals alone is over, for every number and order of literals.", "quantifier": "every expression built with ||, every moment (epoch, rates, elapsed time)", "why_tests_cant": "all expression trees and all moments", "anchors": ["src/neural_network/Wait.cpp: operator||, isOver"]}
{"id": "C17", "title": "a && b stops only when all criteria are met", "statement": "Wait combined by && from literals is over iff all literals are over.", "quantifier": "every expression built with &&, every moment", "why_tests_cant": "all expression trees and all moments", "anchors": ["src/neural_network/Wait.cpp: operator&&, isOver"]}
{"id": "C18", "title": "Mixing && and || is rejected", "statement": "Every expression that mixes && and || throws instead of silently meaning something else.", "quantifier": "every expression tree", "why_tests_cant": "all shapes of expression trees", "anchors": ["src/neural_network/Wait.cpp: operator||, operator&&"]}
{"id": "C19", "title": "A waiting criterion, once over, stays over", "statement": "If isOver holds at some moment it holds at every later moment with at least as many epochs, at least as good accuracy, at most as large MAE and at least as much elapsed time.", "quantifier": "every Wait value and pair of moments", "why_tests_cant": "pairs of arbitrary moments", "anchors": ["src/neural_network/Wait.cpp: isOver"]}
{"id": "C20", "title": "train(data, N_ep) performs exactly N epochs", "statement": "train with a positive epoch count N, and no NaN, returns after exactly N epochs of floor(size/batch) training steps each; getNumberOfTraining grows by N*floor(size/batch) on data that are always trained.", "quantifier": "every N, data size, batch size, evaluation frequency", "why_tests_cant": "loop counts for every size", "anchors": ["src/neural_network/StraightforwardNeuralNetwork.cpp: train, trainSync, continueTraining"]}
{"id": "C21", "title": "train stops at the first evaluation that satisfies the criterion", "statement": "With an accuracy or error criterion train returns at the first epoch boundary where the criterion is met by the metrics of the last evaluation, and not before.", "quantifier": "every sequence of metrics", "why_tests_cant": "depends on the run's history", "anchors": ["src/neural_network/StraightforwardNeuralNetwork.cpp: continueTraining, trainSync"]}
{"id": "C22", "title": "Invalid training requests are rejected without effect", "statement": "train/startTrainingAsync/evaluate throw on data whose sizes do not match the network, and on batch sizes below 1, above the data size, or different from 1 for temporal data; the network is left unchanged.", "quantifier": "every network, data set and batch size", "why_tests_cant": "every combination of sizes", "anchors": ["src/neural_network/StraightforwardNeuralNetwork.cpp: validData, train, evaluate"]}
{"id": "C23", "title": "train leaves the network idle", "statement": "When train returns or its criterion ends it, isTraining() is false and a new train or saveAs is accepted.", "quantifier": "every run", "why_tests_cant": "every run that returns", "anchors": ["src/neural_network/StraightforwardNeuralNetwork.cpp: trainSync, resetTrainingValues"]}
{"id": "C24", "title": "A NaN output freezes the network", "statement": "Once an output is not a number, isNan() stays true, no later training step changes a weight, training stops, and an evaluation reports NaN rates.", "quantifier": "every network and every later sequence of calls", "why_tests_cant": "every later history", "anchors": ["src/neural_network/NeuralNetwork.cpp: output, outputForTraining, backpropagationAlgorithm", "src/neural_network/StraightforwardNeuralNetwork.cpp: evaluate"]}
{"id": "C25", "title": "Auto-save happens exactly when the accuracy improves", "statement": "With autoSaveWhenBetter set, an evaluation saves the network iff the new accuracy is strictly greater than every earlier one; otherwise it never writes.", "quantifier": "every sequence of evaluations", "why_tests_cant": "history dependent", "anchors": ["src/neural_network/StraightforwardNeuralNetwork.cpp: evaluate"]}
{"id": "C26", "title": "Inference and evaluation never change parameters", "statement": "computeOutput, computeCluster and evaluate leave all weights, biases, momentum memories and structure unchanged.", "quantifier": "every network, input and sequence of calls", "why_tests_cant": "every history and layer combination", "anchors": ["src/neural_network/NeuralNetwork.cpp: output", "include/snn/neural_network/layer/Layer.tpp: output"]}
{"id": "C27", "title": "Without recurrent layers computeOutput is a function of the input", "statement": "For a network without recurrent layers, computeOutput(x) returns the same value whatever was computed (inference or evaluation) before.", "quantifier": "every network, every history", "why_tests_cant": "every history of calls", "anchors": ["src/neural_network/NeuralNetwork.cpp: output", "src/neural_network/layer/neuron/SimpleNeuron.cpp"]}
{"id": "C28", "title": "A temporal reset forgets the past", "statement": "After the temporal reset the outputs of a recurrent network depend only on the inputs given since.", "quantifier": "every history before the reset and every sequence after it", "why_tests_cant": "every history", "anchors": ["src/neural_network/layer/neuron/RecurrentNeuron.cpp: reset", "src/neural_network/layer/neuron/GatedRecurrentUnit.cpp: reset"]}
{"id": "C29", "title": "There is at most one training worker", "statement": "Whatever sequence of startTrainingAsync, stopTrainingAsync and train calls a client makes, two training loops of one network never run at the same time.", "quantifier": "every interleaving of the client and workers", "why_tests_cant": "all schedules", "anchors": ["src/neural_network/StraightforwardNeuralNetwork.cpp: startTrainingAsync, stopTrainingAsync"]}
{"id": "C30", "title": "stopTrainingAsync stops the training and returns", "statement": "After stopTrainingAsync() returns no training step occurs until the next start, and it returns under every fair schedule.", "quantifier": "every interleaving", "why_tests_cant": "needs every schedule, including a stop issued before the worker's first instruction", "anchors": ["src/neural_network/StraightforwardNeuralNetwork.cpp: stopTrainingAsync, trainSync"]}
{"id": "C31", "title": "Save then load gives an equal network", "statement": "LoadFrom after saveAs of an idle network yields a network equal to the saved one, with the same parameters, counters and metrics, that computes the same outputs.", "quantifier": "every network of every architecture and state", "why_tests_cant": "every state, including mid-run autosaves", "anchors": ["include/snn/neural_network/StraightforwardNeuralNetwork.hpp: serialize", "src/neural_network/StraightforwardNeuralNetwork.cpp: saveSync, loadFrom"]}
{"id": "C32", "title": "A copy equals its original and is independent of it", "statement": "The copy constructor yields an equal network; training or using either one afterwards never changes the other.", "quantifier": "every network, every later history on both", "why_tests_cant": "every later interleaving of calls", "anchors": ["src/neural_network/StraightforwardNeuralNetwork.cpp: copy constructor", "src/neural_network/NeuralNetwork.cpp: copy constructor", "src/neural_network/layer/neuron/Neuron.cpp"]}
{"id": "C33", "title": "Network equality is an equivalence", "statement": "operator== on networks is reflexive, symmetric and transitive and never reads out of bounds.", "quantifier": "every pair/triple of networks", "why_tests_cant": "every pair", "anchors": ["src/neural_network/StraightforwardNeuralNetwork.cpp: operator==", "include/snn/neural_network/layer/Layer.tpp: operator=="]}
{"id": "C34", "title": "computeOutput returns the declared number of outputs", "statement": "For every accepted architecture, computeOutput on an input of the declared size succeeds and returns exactly getNumberOfOutputs() values.", "quantifier": "every architecture accepted by the constructor", "why_tests_cant": "every composition of layers and shapes", "anchors": ["src/neural_network/layer/LayerFactory.cpp", "src/neural_network/NeuralNetwork.cpp: output, getNumberOfOutputs"]}
{"id": "C35", "title": "Fully connected layers compute activation(weights * input + bias)", "statement": "Output j of a fully connected layer is activation(sum_i w_ji x_i + w_jb * b).", "quantifier": "every layer size, weights and input", "why_tests_cant": "every size", "anchors": ["src/neural_network/layer/neuron/SimpleNeuron.cpp", "include/snn/neural_network/layer/SimpleLayer.tpp"]}
{"id": "C36", "title": "1D convolution is the valid cross-correlation", "statement": "Output at position k of filter f of Convolution1D is activation(sum_{j<K, c<C} w_f[j,c] * x[k+j, c] + bias), for each of the X-K+1 positions.", "quantifier": "every shape, kernel, filters", "why_tests_cant": "index arithmetic for all shapes", "anchors": ["src/neural_network/layer/Convolution1D.cpp"]}
{"id": "C37", "title": "2D convolution is the valid cross-correlation", "statement": "Same in two dimensions, for rectangular inputs too.", "quantifier": "every shape, kernel, filters", "why_tests_cant": "index arithmetic for all shapes", "anchors": ["src/neural_network/layer/Convolution2D.cpp"]}
{"id": "C38", "title": "Locally connected layers apply one neuron per tile", "statement": "LocallyConnected1D/2D split the input in ceil(X/K) (x ceil(Y/K)) tiles; output of tile t, filter f uses its own weights on the tile's inputs, with zero padding at the border.", "quantifier": "every shape, kernel, filters, non-square too", "why_tests_cant": "index arithmetic for all shapes", "anchors": ["src/neural_network/layer/LocallyConnected1D.cpp", "src/neural_network/layer/LocallyConnected2D.cpp"]}
{"id": "C39", "title": "Max pooling returns the maximum of each tile", "statement": "MaxPooling1D/2D output for each tile and channel is the maximum of the existing inputs of the tile, and errors are sent back to the position of that maximum only.", "quantifier": "every shape, kernel and input", "why_tests_cant": "index arithmetic for all shapes", "anchors": ["src/neural_network/layer/MaxPooling1D.cpp", "src/neural_network/layer/MaxPooling2D.cpp"]}
{"id": "C40", "title": "One training step is a step of gradient descent", "statement": "For fully connected networks of any depth, without momentum, one training step changes each weight by -learningRate times the partial derivative of the squared error at that weight.", "quantifier": "every depth, widths, weights, input, expected output", "why_tests_cant": "for every network and point", "anchors": ["src/neural_network/NeuralNetwork.cpp: backpropagationAlgorithm", "src/neural_network/layer/neuron/SimpleNeuron.cpp", "src/neural_network/optimizer/StochasticGradientDescent.cpp"]}
{"id": "C41", "title": "SGD with momentum follows its recurrence", "statement": "Every weight follows delta_t = lr * error * input + momentum * delta_{t-1}; w_t = w_{t-1} + delta_t over every sequence of updates, the bias weight too.", "quantifier": "every sequence of updates", "why_tests_cant": "unbounded histories", "anchors": ["src/neural_network/optimizer/StochasticGradientDescent.cpp"]}
{"id": "C42", "title": "Recurrent neurons are updated on all their weights", "statement": "In a recurrent neuron's update each input weight, the recurrent weight and the bias weight change by the increment computed for it.", "quantifier": "every neuron and update", "why_tests_cant": "every size", "anchors": ["src/neural_network/optimizer/StochasticGradientDescent.cpp: updateWeights(RecurrentNeuron)"]}
{"id": "C43", "title": "Stored inputs are replayed in order", "statement": "During backpropagation of a layer whose neurons serve several positions (convolution), each position uses the inputs it saw in the matching forward pass, for every number of rounds.", "quantifier": "every number of positions and rounds of forward/backward", "why_tests_cant": "unbounded rounds", "anchors": ["src/neural_network/layer/neuron/CircularData.cpp"]}
{"id": "C44", "title": "Each activation's derivative is the derivative of its function", "statement": "For each activation, derivative(x) is the mathematical derivative of function at x wherever it exists, and outputs stay in the declared [min,max].", "quantifier": "every real x and every activation", "why_tests_cant": "continuous domain", "anchors": ["include/snn/neural_network/layer/neuron/activation_function/Sigmoid.hpp", "include/snn/neural_network/layer/neuron/activation_function/ImprovedSigmoid.hpp", "include/snn/neural_network/layer/neuron/activation_function/Tanh.hpp", "include/snn/neural_network/layer/neuron/activation_function/ReLU.hpp", "include/snn/neural_network/layer/neuron/activation_function/GELU.hpp", "include/snn/neural_network/layer/neuron/activation_function/Gaussian.hpp", "include/snn/neural_network/layer/neuron/activation_function/Identity.hpp", "src/neural_network/layer/neuron/activation_function/ActivationFunction.cpp"]}
{"id": "C45", "title": "Softmax outputs a probability distribution", "statement": "For raw outputs that are numbers, after Softmax the outputs are in [0,1], sum to 1, keep the order of the raw outputs, and do not change if a constant is added to all of them.", "quantifier": "every output vector", "why_tests_cant": "continuous domain of every length", "anchors": ["src/neural_network/optimizer/Softmax.cpp"]}
{"id": "C46", "title": "Dropout drops or keeps, consistently", "statement": "In training a Dropout layer either zeroes an output or leaves it unchanged; the same positions are zeroed in the errors of the matching backpropagation; inference scales every output by 1 - p; no other state changes.", "quantifier": "every mask and vector", "why_tests_cant": "every random draw", "anchors": ["src/neural_network/optimizer/Dropout.cpp"]}
{"id": "C47", "title": "Error optimizers only scale or shift errors as documented", "statement": "ErrorMultiplier multiplies each error by its factor; L1/L2 regularisation add the factor times the average absolute/squared weight to every error; none changes outputs.", "quantifier": "every layer and error vector", "why_tests_cant": "every size", "anchors": ["src/neural_network/optimizer/ErrorMultiplier.cpp", "src/neural_network/optimizer/L1Regularization.cpp", "src/neural_network/optimizer/L2Regularization.cpp"]}
{"id": "C48", "title": "The GRU output is a gated blend and stays bounded", "statement": "The output of a GRU neuron is (1-z)*previous + z*candidate with z in [0,1], hence stays in [-1,1] for every sequence of inputs; the previous output it blends with is its output at the previous time step.", "quantifier": "every input sequence and weights", "why_tests_cant": "unbounded sequences", "anchors": ["src/neural_network/layer/neuron/GatedRecurrentUnit.cpp: output"]}
{"id": "C49", "title": "Architectures are rejected exactly when malformed", "statement": "The network constructor throws on an empty architecture, a missing or misplaced Input, empty or too large shapes, kernels larger than the input, and otherwise builds layers whose input size is the previous layer's output size.", "quantifier": "every architecture description", "why_tests_cant": "every composition", "anchors": ["src/neural_network/layer/LayerFactory.cpp", "include/snn/neural_network/layer/LayerFactory.hpp", "src/neural_network/NeuralNetwork.cpp: isValid"]}
{"id": "C50", "title": "The predicted class is an index of the outputs", "statement": "computeCluster returns the first index of the largest output.", "quantifier": "every network and input", "why_tests_cant": "every output vector", "anchors": ["src/neural_network/StraightforwardNeuralNetwork.cpp: computeCluster"]}
{"id": "C51", "title": "Weights set are the weights used", "statement": "setWeights with the right number of values is read back by getWeights and used by the next output; a wrong number of values throws and changes nothing.", "quantifier": "every neuron and weight vector", "why_tests_cant": "every size", "anchors": ["src/neural_network/layer/neuron/Neuron.cpp: setWeights, getWeights"]}
{"id": "C52", "title": "Flat indices and coordinates are inverse to each other", "statement": "flatten(x,y[,z]) is injective on its box and roughenX/Y/Z recover the coordinates.", "quantifier": "every size and coordinate", "why_tests_cant": "every size", "anchors": ["include/snn/tools/Tools.hpp: flatten, roughenX, roughenY, roughenZ"]}
{"id": "C53", "title": "Vector helpers compute what they say", "statement": "getMinValue/getMaxValue return the extreme of every non-empty vector; flatten of nested vectors concatenates; toConstSizeString has the requested length; randomBetween stays in [min,max).", "quantifier": "every vector and every random draw", "why_tests_cant": "every length", "anchors": ["include/snn/tools/Tools.hpp", "src/tools/Tools.cpp"]}
{"id": "C54", "title": "Filter visualisation draws each weight in its own pixel", "statement": "In the filter bitmap, every filter's weight is drawn in bounds and no two (filter, weight) pairs share a pixel; the picture of filter f reads only the weights of filter f.", "quantifier": "every layer shape", "why_tests_cant": "every shape", "anchors": ["src/neural_network/NeuralNetworkVisualization.cpp"]}
{"id": "C55", "title": "Weights explode or vanish: validity of neurons is reported", "statement": "isValid of a network returns 0 if and only if every parameter is in its range, and otherwise the code of the first violation in this order: the layers have 1 to 2073600 inputs (101), there are 1 to 1000 layers (102), the learning rate is in (0,1) (103), the momentum in [0,1] (104); then layer by layer, the neurons have the number of inputs of the layer (203), the shape multiplies to the number of outputs (202), there are 1 to 1000000 neurons (201), a pooling has positions (204), and neuron by neuron the bias and the weights are in [-100000,10000] (301, 303), there are 1 to 1000000 weights (302), a recurrent neuron has two more weights than inputs (304). NaN parameters and dropout rates outside [0,1] are rejected too.", "quantifier": "every network", "why_tests_cant": "every combination of violations", "anchors": ["src/neural_network/NeuralNetwork.cpp: isValid", "src/neural_network/layer/neuron/Neuron.cpp: isValid", "src/neural_network/optimizer/StochasticGradientDescent.cpp: isValid"]}
{"id": "C56", "title": "A convolution trains with the gradient of its output", "statement": "For a convolution layer the error sent back to input i is the sum, over every output position and kernel offset touching i, of error * activation' * weight.", "quantifier": "every shape, kernel, filters", "why_tests_cant": "index arithmetic for all shapes", "anchors": ["src/neural_network/layer/Convolution1D.cpp: computeBackOutput", "src/neural_network/layer/Convolution2D.cpp: computeBackOutput"]}
{"id": "C57", "title": "Evaluation metrics are independent of the order of testing examples", "statement": "For a network without recurrent layers whose outputs on the testing set are numbers, permuting the testing set does not change any confusion count of evaluate.", "quantifier": "every permutation of every testing set", "why_tests_cant": "all permutations", "anchors": ["src/neural_network/StatisticAnalysis.cpp", "src/neural_network/StraightforwardNeuralNetwork.cpp: evaluate"]}
{"id": "C58", "title": "Counting stays exact", "statement": "The counts behind accuracy stay exact for every number of evaluated examples.", "quantifier": "every number of evaluations", "why_tests_cant": "the failure needs more than sixteen million evaluations of one set", "anchors": ["include/snn/neural_network/StatisticAnalysis.hpp: binaryClassification (float counters)"]}
{"id": "C59", "title": "Training and inference on fitting data never fault", "statement": "For every well formed architecture whose last layer is made of neurons (dense, recurrent, gated recurrent or locally connected; convolutions and poolings only before it) and every history of train, evaluate, computeOutput and computeCluster calls whose data and inputs have the network's sizes, no call reads or writes out of bounds, throws or divides by zero: every call returns, or runs on because its wait condition is not met yet.", "quantifier": "every accepted architecture, every fitting data set, every call history and every sequence of random draws", "why_tests_cant": "all architectures and unbounded call histories", "anchors": ["src/neural_network/StraightforwardNeuralNetwork.cpp: train, evaluate, computeOutput, computeCluster", "src/neural_network/NeuralNetwork.cpp", "src/neural_network/layer"]}
{"id": "C60", "title": "An auto-saved network can be loaded, trained and saved", "statement": "A network loaded from a file written by auto-save is an idle network: train and saveAs accept it like the network that wrote it.", "quantifier": "every training run with auto-save on, every auto-save point", "why_tests_cant": "every point of the run at which the process may stop", "anchors": ["src/neural_network/StraightforwardNeuralNetwork.cpp: saveSync, evaluate, train, saveAs, loadFrom"]}
{"id": "C61", "title": "Networks that compare equal behave alike", "statement": "If two networks compare equal with operator==, they give the same outputs for every sequence of inputs.", "quantifier": "every pair of networks and every input sequence", "why_tests_cant": "every pair of states", "anchors": ["src/neural_network/StraightforwardNeuralNetwork.cpp: operator==", "include/snn/neural_network/layer/Layer.tpp: operator=="]}
{"id": "C62", "title": "train is the sequential training run", "statement": "Called on an idle network with no training thread, train(data, wait) returns in the state the same training run reaches when executed alone from start to end; no interleaving of the training thread and the calling thread changes the result.", "quantifier": "every schedule of the calling thread and the training thread, every data set and wait", "why_tests_cant": "every interleaving", "anchors": ["src/neural_network/StraightforwardNeuralNetwork.cpp: train, startTrainingAsync, waitFor, stopTrainingAsync"]}
{"id": "C63", "title": "waitFor waits for the training that was just started", "statement": "After startTrainingAsync, waitFor(n epochs) returns only when the training just started has completed n epochs.", "quantifier": "every schedule, every earlier training history", "why_tests_cant": "every interleaving and every earlier history", "anchors": ["src/neural_network/StraightforwardNeuralNetwork.cpp: startTrainingAsync, waitFor, resetTrainingValues", "src/neural_network/Wait.cpp: isOver"]}
{"id": "C64", "title": "Output and input bitmaps show each value in its own pixel", "statement": "The bitmap of the outputs of a filter layer shows output (filter f, column i, row j) at pixel (i, j) of picture f, the pictures are side by side with a black line between them, no two outputs share a pixel and nothing is drawn outside of the image; the bitmap of an input with one or three channels shows at pixel (i, j) the values of the channels at (i, j).", "quantifier": "every number of filters, every picture size, every vector of outputs", "why_tests_cant": "the index arithmetic must hold for every shape and number of filters", "anchors": ["src/neural_network/NeuralNetworkVisualization.cpp: saveAsBitmap"]}
{"id": "C65", "title": "Only training teaches: nothing leaks from evaluations and inferences", "statement": "Two programs that start from the same network and give it the same trainings (same training examples, criterion without metrics, batch size and random order) end with the same parameters and answers, whatever the testing sets, the evaluation frequencies, and the inferences, evaluations and saves in between.", "quantifier": "every feedforward architecture, every pair of call histories with the same lessons", "why_tests_cant": "a property of pairs of unbounded histories", "anchors": ["src/neural_network/StraightforwardNeuralNetwork.cpp: train, evaluate, computeOutput, computeCluster", "src/data/Data.cpp"]}
{"id": "C66", "title": "The reported accuracy is the fraction of testing examples the network gets right", "statement": "After evaluate on a non-temporal data set, for a network without recurrent layers and in exact arithmetic, getGlobalClusteringRate is the number of testing examples on which the network answers correctly divided by their number: computeCluster gives the class of the example (classification), every output is on the right side of the separator (multiple classification), every output is within the precision (regression).", "quantifier": "every feedforward architecture, every earlier call history, every fitting data set, every random draw", "why_tests_cant": "end to end over all architectures, histories and data sets", "anchors": ["src/neural_network/StraightforwardNeuralNetwork.cpp: evaluate, computeOutput, computeCluster, getGlobalClusteringRate", "src/neural_network/StatisticAnalysis.cpp"]}
{"id": "C67", "title": "Evaluating again without learning gives the same metrics", "statement": "For a network without recurrent layers, evaluating the same data set a second time, after any inferences, evaluations and saves but no training, reports the same counts, rates and errors, does not raise the best rate and does not auto-save.", "quantifier": "every feedforward architecture, every earlier history, every idle history between the two evaluations", "why_tests_cant": "unbounded histories before and between", "anchors": ["src/neural_network/StraightforwardNeuralNetwork.cpp: evaluate", "src/neural_network/StatisticAnalysis.cpp"]}
{"id": "C68", "title": "A network keeps the structure of its architecture", "statement": "Every network a program can hold (made from a well formed architecture, then trained, evaluated, copied, saved and loaded in any order) has the layers of the architecture: their kinds, sizes, kernels, layer optimizers, activations and numbers of weights; the learning rate and momentum are those given to the constructor.", "quantifier": "every well formed architecture and every program", "why_tests_cant": "unbounded histories of calls, copies and loads", "anchors": ["src/neural_network/layer/LayerFactory.cpp: build", "src/neural_network/NeuralNetwork.cpp"]}
{"id": "C69", "title": "Reported sizes are those of the architecture", "statement": "getNumberOfLayers, getNumberOfInputs, getNumberOfNeurons and getNumberOfParameters are the number of layers after the input, the size of the input, and the numbers of neurons and weights of the architecture: n neurons with one weight per input and a bias weight for a dense layer, one more for a recurrent one, three times that for a gated one, one neuron per filter for a convolution and one per filter and tile for a locally connected layer, with kernel size (squared) times channels and one weights.", "quantifier": "every well formed architecture and every program", "why_tests_cant": "all sizes, including those whose counts exceed an int", "anchors": ["src/neural_network/NeuralNetwork.cpp: getNumberOfLayers, getNumberOfInputs, getNumberOfNeurons, getNumberOfParameters", "include/snn/neural_network/layer/Layer.tpp: getNumberOfParameters"]}
{"id": "C70", "title": "summary() describes the network", "statement": "For a network of any well formed architecture, after any history of calls, copies and loads, summary() returns the name, the number of parameters, the epochs and training steps so far, then for each layer in order its kind, input shape, neurons or filters and kernel, parameters, activation, output shape and layer optimizers as given in the architecture, then the optimizer and its settings.", "quantifier": "All well formed architectures, all histories, all ways to print a float", "why_tests_cant": "The text depends on every layer kind, shape and history; tests compare the text of a few networks", "anchors": ["src/neural_network/StraightforwardNeuralNetwork.cpp: StraightforwardNeuralNetwork::summary", "src/neural_network/layer/FullyConnected.cpp: summary", "src/neural_network/layer/Recurrence.cpp: summary", "src/neural_network/layer/GruLayer.cpp: summary", "src/neural_network/layer/Convolution1D.cpp: summary", "src/neural_network/layer/Convolution2D.cpp: summary", "src/neural_network/layer/LocallyConnected1D.cpp: summary", "src/neural_network/layer/LocallyConnected2D.cpp: summary", "src/neural_network/layer/MaxPooling1D.cpp: summary", "src/neural_network/layer/MaxPooling2D.cpp: summary", "src/neural_network/optimizer/Dropout.cpp: summary", "src/neural_network/optimizer/L1Regularization.cpp: summary", "src/neural_network/optimizer/L2Regularization.cpp: summary", "src/neural_network/optimizer/ErrorMultiplier.cpp: summary", "src/neural_network/optimizer/Softmax.cpp: summary", "src/neural_network/optimizer/StochasticGradientDescent.cpp: summary"]}
{"id": "C71", "title": "getNumberOfTraining counts the training steps", "statement": "Over any history of calls getNumberOfTraining() grows by exactly the number of training steps made (batches given to backpropagation), for every kind of data, batch size, stopping criterion and number of calls to train; a new network has 0; outputs, evaluations and saves do not count; copies and loaded networks keep the value.", "quantifier": "All networks, data, histories of calls, clocks and shuffles", "why_tests_cant": "The count must be right for every mixture of calls, stopping points and temporal data", "anchors": ["src/neural_network/NeuralNetwork.cpp: NeuralNetwork::trainOnce, NeuralNetwork::getNumberOfTraining", "src/neural_network/StraightforwardNeuralNetwork.cpp: trainSync"]}
{"id": "C72", "title": "A network's outputs stay in the range promised by its last layer", "statement": "On every input and after every history of construction, training, evaluation, copies, saves and loads, every value returned by computeOutput is: in [0,1] if the last layer that is not a pooling uses sigmoid or gaussian; in [-1,1] if it uses tanh or is a GruLayer; not negative if it uses ReLU (with any layer optimizers but Softmax, dropout rates in [0,1]). If the last layer ends with Softmax the values are positive and sum to 1. For such last layers of neurons computeCluster always answers with the index of the first largest output, never -1. (Exact real arithmetic.)", "quantifier": "every well-formed architecture of any depth and mix of layers, every history, every input, with or without temporal reset", "why_tests_cant": "The weights reached by training and the inputs are unbounded; tests observe a few outputs of a few networks", "anchors": ["src/neural_network/NeuralNetwork.cpp: NeuralNetwork::output", "src/neural_network/layer/SimpleLayer.cpp: computeOutput", "src/neural_network/layer/Convolution1D.cpp: computeOutput", "src/neural_network/layer/Convolution2D.cpp: computeOutput", "src/neural_network/layer/LocallyConnected1D.cpp: computeOutput", "src/neural_network/layer/LocallyConnected2D.cpp: computeOutput", "src/neural_network/layer/MaxPooling1D.cpp: computeOutput", "src/neural_network/layer/MaxPooling2D.cpp: computeOutput", "include/snn/neural_network/layer/neuron/activation_function/Sigmoid.hpp", "include/snn/neural_network/layer/neuron/activation_function/ImprovedSigmoid.hpp", "include/snn/neural_network/layer/neuron/activation_function/Tanh.hpp", "include/snn/neural_network/layer/neuron/activation_function/ReLU.hpp", "include/snn/neural_network/layer/neuron/activation_function/GELU.hpp", "include/snn/neural_network/layer/neuron/activation_function/Gaussian.hpp", "include/snn/neural_network/layer/neuron/activation_function/Identity.hpp", "src/neural_network/StraightforwardNeuralNetwork.cpp: computeOutput, computeCluster"]}
{"id": "C73", "title": "The log tells what happened and changes nothing", "statement": "With any level of `verbose` and any clock, train returns, throws and saves exactly as with verbose = none; the lines with the accuracy printed at a visible level are, in order, the evaluations made by the training, each with its epoch, clustering rate, mean absolute error and whether the network was saved; nothing is printed at the level none; each progress line shows a position inside the set it names (training or testing), and the epochs shown never decrease. The same holds for evaluate(data).", "quantifier": "All levels, clocks, networks, data, criteria and batch sizes", "why_tests_cant": "The library is tested with one level; the lines depend on the timing", "anchors": ["include/snn/neural_network/StraightforwardNeuralNetwork.hpp: logAccuracy, logInProgress, evaluate", "include/snn/tools/Tools.hpp: log", "src/neural_network/StraightforwardNeuralNetwork.cpp: trainSync, evaluate", "src/neural_network/Wait.cpp: tick, tack, getDuration"]}
{"id": "C74", "title": "The progress counters tell the progress", "statement": "After train returns, getCurrentEpoch() is the number of epochs made, getCurrentIndex() is 0 and getNumberOfTrainingsBetweenTwoEvaluations() is the number of training examples; setNumberOfTrainingsBetweenTwoEvaluations sets how many training examples are seen between two evaluations.", "quantifier": "All networks, data, criteria without duration, batch sizes and histories", "why_tests_cant": "The counters must be right at every point where training can stop", "anchors": ["include/snn/neural_network/StraightforwardNeuralNetwork.hpp: getCurrentIndex, getCurrentEpoch, getNumberOfTrainingsBetweenTwoEvaluations, setNumberOfTrainingsBetweenTwoEvaluations", "src/neural_network/StraightforwardNeuralNetwork.cpp: trainSync, resetTrainingValues"]}
{"id": "C75", "title": "A recurrent layer computes the Elman recurrence", "statement": "The outputs of a Recurrence layer on a sequence of inputs are those of h(t) = f(W x(t) + U h(t-1) elementwise + b): each neuron feeds back only its own last output, starting from 0 when the layer is new and from the last answer afterwards, with the weights the layer has at that moment.", "quantifier": "Every number of neurons, every activation, every sequence of inputs of any length, every previous use of the layer (outputs, training, backpropagation), every arithmetic (floats included)", "why_tests_cant": "The output depends on the whole history of inputs; tests see a few short sequences", "anchors": ["src/neural_network/layer/neuron/RecurrentNeuron.cpp: output", "src/neural_network/layer/SimpleLayer.cpp: computeOutput", "src/neural_network/layer/Recurrence.cpp"]}
{"id": "C76", "title": "Filters see only their window and convolutions are the same everywhere", "statement": "An output of a convolution (1D, 2D) or of a 1D locally connected layer depends only on the inputs in its window; and two positions of a convolution whose windows hold the same values (in the same input or in two inputs) have exactly the same outputs: translating the input translates the output.", "quantifier": "Every number of filters, kernel, shape, activation, weights reached by any use of the layer, every pair of inputs and positions, every arithmetic (floats included)", "why_tests_cant": "The claim relates two arbitrary inputs and all positions; tests compare a few numbers", "anchors": ["src/neural_network/layer/Convolution1D.cpp: createInputsForNeuron, computeOutput", "src/neural_network/layer/Convolution2D.cpp", "src/neural_network/layer/LocallyConnected1D.cpp", "src/neural_network/layer/FilterLayer.cpp"]}
{"id": "C77", "title": "Neutral layer optimizers change nothing", "statement": "Adding or removing, anywhere in an architecture, L1Regularization(0), L2Regularization(0) or ErrorMultiplier(1) changes nothing a client can see: the constructors fail in the same way or make, with the same random numbers, two networks that give the same answers to every sequence of calls (outputs, clusters, trainings, evaluations, saves), show the same values and always have the same weights. (Exact arithmetic.)", "quantifier": "All architectures, all positions of the optimizers, all optimizers, random numbers, sequences of calls of any length", "why_tests_cant": "The claim relates two architectures over all histories; tests train a few networks", "anchors": ["src/neural_network/optimizer/L1Regularization.cpp", "src/neural_network/optimizer/L2Regularization.cpp", "src/neural_network/optimizer/ErrorMultiplier.cpp", "include/snn/neural_network/layer/Layer.tpp: output, outputForTraining, backOutput, train", "src/neural_network/optimizer/LayerOptimizerFactory.cpp: build"]}
{"id": "C78", "title": "A convolution that covers its input is a locally connected layer", "statement": "Replacing, anywhere in an architecture, a Convolution whose kernel has the size of its input by a LocallyConnected with the same filters, kernel, activation and optimizers changes nothing a client can see: same answers to every sequence of calls, same values, same weights after each call, in every arithmetic.", "quantifier": "All architectures with 1D or 2D inputs at any depth, all optimizers, random numbers, sequences of calls of any length", "why_tests_cant": "The claim relates two implementations (four classes) over all histories", "anchors": ["src/neural_network/layer/Convolution1D.cpp: computeOutput, computeBackOutput, computeTrain", "src/neural_network/layer/Convolution2D.cpp: computeOutput, computeBackOutput, computeTrain", "src/neural_network/layer/LocallyConnected1D.cpp: computeOutput, computeBackOutput, computeTrain", "src/neural_network/layer/LocallyConnected2D.cpp: computeOutput, computeBackOutput, computeTrain", "src/neural_network/layer/LayerFactory.cpp: build"]}
{"id": "C79", "title": "Full-batch training does not depend on the order of the examples", "statement": "Training with a batch size equal to the number of training examples gives the same network, the same metrics, the same events and the same saved files whatever the order in which the training examples were given, whatever shuffles were made before, and whatever the random generator that shuffles them at each epoch (exact arithmetic).", "quantifier": "every list of non temporal examples of equal sizes and every permutation of it, every history of shuffles, every network, waiting criterion, evaluation frequency and pair of random generators", "why_tests_cant": "a test compares a few permutations of one data set; it cannot quantify over all permutations, shuffles and architectures", "anchors": ["include/snn/data/Data.hpp:Data", "src/data/Data.cpp:Data::getTrainingData", "src/data/ProblemComposite.cpp:ProblemComposite::getTrainingOutputs", "src/neural_network/StraightforwardNeuralNetwork.cpp:StraightforwardNeuralNetwork::trainSync"]}
{"id": "C80", "title": "A batch is learned like the mean of its examples, not like the mean of their gradients", "statement": "A training step on a batch of b examples changes the network as the mini-batch gradient would, that is by the mean of the updates of its examples.", "quantifier": "every network, every data set, every position and batch size", "why_tests_cant": "the equality must hold for every network and batch; a test of one linear neuron with a non centred batch can pass", "anchors": ["src/data/Data.cpp:Data::getTrainingData", "src/data/ProblemComposite.cpp:ProblemComposite::getTrainingOutputs", "src/neural_network/StraightforwardNeuralNetwork.cpp:StraightforwardNeuralNetwork::trainSync"]}
{"id": "C81", "title": "Initial weights are independent draws of the documented distribution", "statement": "In a network that was just constructed every weight of every neuron is a function of one random draw, uniform between -2.4/sqrt(n) and 2.4/sqrt(n) where n is the number of weights of the neuron (not negative for the weight of the bias), and no two weights of the network come from the same draw.", "quantifier": "every architecture the constructor accepts, every stream of random draws", "why_tests_cant": "a test samples a few networks and can only see that weights look different and small", "anchors": ["src/neural_network/layer/neuron/Neuron.cpp:Neuron::randomInitializeWeight", "src/neural_network/layer/neuron/GatedRecurrentUnit.cpp:GatedRecurrentUnit", "src/neural_network/layer/LayerFactory.cpp:LayerFactory::build", "src/tools/Tools.cpp:randomBetween"]}
{"id": "C82", "title": "The rates reported after an evaluation are the documented statistics", "statement": "After an evaluation of a classification or multi-label network getWeightedClusteringRate is the mean over the labels of the recall, getF1Score the mean over the labels of the F1 score, and getMeanAbsoluteError the mean over the testing examples of the absolute error; if every example is classified right the rates are 1.", "quantifier": "every feedforward network in every reachable state, every data set and separator", "why_tests_cant": "a test compares a few data sets; the formulas must hold for every confusion table, including labels without examples", "anchors": ["src/neural_network/StatisticAnalysis.cpp:StatisticAnalysis::computeWeightedClusteringRate", "src/neural_network/StatisticAnalysis.cpp:StatisticAnalysis::computeF1Score", "src/neural_network/StatisticAnalysis.cpp:StatisticAnalysis::evaluateOnceForClassification"]}
{"id": "C83", "title": "A crash never leaves a wrong network, and one network can still be loaded", "statement": "If the process crashes at any moment of any run, in particular in the middle of a save or an auto-save, then afterwards loadFrom(path) gives the previously saved network or the new one, complete; it never gives a mixture of both, a network with other weights, or undefined behaviour.", "quantifier": "every run, every crash point (every byte written), every path", "why_tests_cant": "a test cannot crash the program at every byte of every save", "anchors": ["src/neural_network/StraightforwardNeuralNetwork.cpp:StraightforwardNeuralNetwork::saveSync", "src/neural_network/StraightforwardNeuralNetwork.cpp:StraightforwardNeuralNetwork::loadFrom", "src/neural_network/StraightforwardNeuralNetwork.cpp:StraightforwardNeuralNetwork::saveAs"]}
{"id": "C84", "title": "Training on a perfectly answered example changes nothing", "statement": "A training step whose expected outputs are exactly the answers the network gives has a zero error for every output, so it changes no weight: the network answers every input afterwards as it did before.", "quantifier": "every feedforward network that ends with neurons, has no L1/L2 penalty and no momentum, in every reachable state; every input; the expected outputs equal to the answers", "why_tests_cant": "a test tries a few networks; the claim is about every architecture, every state and every input", "anchors": ["src/neural_network/StraightforwardNeuralNetwork.cpp: trainOnce", "src/neural_network/NeuralNetwork.cpp: trainOnce, calculateError", "src/neural_network/layer/neuron/SimpleNeuron.cpp: train", "src/neural_network/optimizer/StochasticGradientDescent.cpp: updateWeights"]}
{"id": "C85", "title": "Training can be interrupted and resumed", "statement": "Training a network for N epochs and then for M epochs, on the same data and with the random generators going on, gives the same network as training it for N+M epochs: the same parameters, the same number of trainings, the same answers. What is done in between (inferences, evaluations, saving) and how often the trainings are evaluated does not matter, and in between the network may be saved and loaded by another process.", "quantifier": "every architecture, every history before, every N and M, every data set, batch size, evaluation frequency and pause", "why_tests_cant": "a test compares a few runs; the claim is about every architecture, history, pair of lengths and pause", "anchors": ["src/neural_network/StraightforwardNeuralNetwork.cpp: train, trainSync, saveAs, loadFrom", "src/data/Data.cpp: shuffle"]}
{"id": "C86", "title": "A classifier that ends with Softmax descends the cross-entropy", "statement": "For every architecture of fully connected, locally connected and max pooling layers that ends with a fully connected layer with Softmax, after every history of calls, one training step on expected outputs that sum to 1 moves every weight, biases included, by minus the learning rate times the partial derivative at this weight of the (doubled) cross-entropy of the probabilities that the network answers.", "quantifier": "all such architectures (any depth, widths, activation functions but ImprovedSigmoid), all draws, all histories of calls, all inputs where the network is differentiable, all expected outputs that sum to 1, all weights", "why_tests_cant": "the derivative is a limit over all small changes of each of the weights, at every state that training can reach", "anchors": ["src/neural_network/optimizer/Softmax.cpp:computeSoftmax", "src/neural_network/optimizer/Softmax.cpp:applyBeforeBackpropagation", "src/neural_network/NeuralNetwork.cpp:backpropagationAlgorithm", "src/neural_network/NeuralNetwork.cpp:calculateError"]}
{"id": "C87", "title": "A layer of linear neurons learns one example by heart", "statement": "For every network of one layer of linear (identity) neurons, after every history of calls, repeated trainOnce calls on one example bring all the outputs as near as wanted to the expected ones, for every input, every expected output and every small enough learning rate.", "quantifier": "all numbers of inputs and of neurons, all draws, all histories of calls, all examples, all learning rates, all numbers of training steps", "why_tests_cant": "convergence is about unboundedly many steps and all starting weights; a test sees some steps of one run", "anchors": ["src/neural_network/NeuralNetwork.cpp:trainOnce", "src/neural_network/optimizer/StochasticGradientDescent.cpp:updateWeights", "src/neural_network/layer/neuron/SimpleNeuron.cpp:output"]}
{"id": "C88", "title": "Accuracy of single-precision answers", "statement": "In single precision (binary32, every operation rounded to nearest, gradual underflow, overflow to infinity), the answer of a network of fully connected layers with identity or rectified linear activations is finite and differs from the answer that exact arithmetic would give with the same weights by at most a bound computed layer by layer from the weights and the exact values: (n+2)\u00b72^-23 of the sum of the absolute values of the terms, plus (n+1)\u00b72^-148, plus the errors of the inputs multiplied by the absolute values of the weights; provided that no layer has 2^23 inputs or more and that no sum of absolute values exceeds 2^125.", "quantifier": "every number and width of layers, every history of calls, all finite weights and inputs that cannot overflow", "why_tests_cant": "rounding errors depend on every operand; a test compares a few answers with an arbitrary tolerance", "anchors": ["src/neural_network/layer/neuron/SimpleNeuron.cpp:output", "src/neural_network/NeuralNetwork.cpp:output", "src/neural_network/StraightforwardNeuralNetwork.cpp:computeOutput"]}
{"id": "C89", "title": "The accessors of the data speak about the same example", "statement": "getData(set, i), getOutputs(set, i) and getLabel(set, i) give the input, the expected output and the label of one same example, after every history of shuffles and unshuffles.", "quantifier": "all classification data of every nature, all histories of shuffle and unshuffle with all random draws, all positions", "why_tests_cant": "a test reads a few positions of data that usually were not shuffled", "anchors": ["src/data/Data.cpp:getData, getOutputs, getLabel", "src/data/CompositeForClassification.cpp:getTrainingLabel, getTestingLabel", "src/data/ProblemComposite.cpp:getTrainingOutputs"]}
{"id": "C90", "title": "Small changes of the input change the answer little, and not the class when the margin is large", "statement": "In exact arithmetic, on two inputs that differ by at most \u03b5 in every component, computeOutput of a network without recurrent layers returns outputs that differ by at most L \u03b5 in every component, where L, the product over the layers of the bound of the slope of the activation times the greatest sum of absolute values of the input weights of a neuron (times the reverse value of dropout, times 1/2 for softmax; 1 for pooling), is computed from what the getters show. So the answers are continuous, and when the output of the predicted class exceeds all the others by more than 2 L \u03b5, computeCluster returns the same class on every input within \u03b5.", "quantifier": "every well-formed architecture of any depth without recurrent layers that ends with a layer of neurons, all activation functions and layer optimizers, every history of calls, every pair of inputs, every \u03b5", "why_tests_cant": "There are infinitely many perturbations of an input: a test can only try some of them, and cannot certify that none of them changes the class.", "anchors": ["src/neural_network/NeuralNetwork.cpp: NeuralNetwork::output", "include/snn/neural_network/layer/Layer.tpp: Layer::output", "src/neural_network/layer/neuron/SimpleNeuron.cpp: SimpleNeuron::output", "src/neural_network/layer/MaxPooling2D.cpp: MaxPooling2D::computeOutput", "src/neural_network/layer/Convolution2D.cpp: Convolution2D::computeOutput"]}
{"id": "C91", "title": "Asynchronous training is free of data races", "statement": "A program that uses a network from one thread \u2014 startTrainingAsync, stopTrainingAsync, waitFor, train, the destructor \u2014 has no data race: any two accesses to the same member by the client and by a training thread, one of them a write, are ordered by the start or the join of that thread.", "quantifier": "every client, every sequence of calls, every interleaving of the client and the training threads, every training", "why_tests_cant": "A data race is a property of every schedule and of the happens-before order, not of the values a test observes; a test passes on the schedules it happens to get", "anchors": ["src/neural_network/StraightforwardNeuralNetwork.cpp:startTrainingAsync", "src/neural_network/StraightforwardNeuralNetwork.cpp:stopTrainingAsync", "src/neural_network/StraightforwardNeuralNetwork.cpp:waitFor", "include/snn/neural_network/StraightforwardNeuralNetwork.hpp:wantToStopTraining"]}
{"id": "C92", "title": "Two networks can be trained at the same time", "statement": "Two different networks used by two threads at the same time do not interfere: each one goes only through states it can reach alone, and there is no data race between them.", "quantifier": "every pair of networks and clients, every interleaving of the clients and of the training threads of both networks", "why_tests_cant": "The interference depends on the schedule of the two threads; tests train one network at a time or observe only a few schedules", "anchors": ["include/snn/tools/Tools.hpp:rng", "src/data/CompositeForNonTemporalData.cpp:shuffle", "src/neural_network/optimizer/Dropout.cpp:applyBeforeBackpropagation", "src/neural_network/StraightforwardNeuralNetwork.cpp:trainSync"]}
{"id": "C93", "title": "A gated recurrent unit learns with all its gates", "statement": "When a network with gated recurrent layers is trained with stochastic gradient descent, each weight of an input in each of the three gates of a unit (reset, update, output) moves by learningRate * error * D (plus the momentum term), where D is the derivative of the answer of the unit with respect to this weight; in particular no gate keeps its initial weights for ever when its influence on the answer is not null.", "quantifier": "every unit reached from its constructor by any calls, every input, error and temporal reset, hidden or first layer; for the networks every architecture with a gated layer, every history of calls, every data set, batch size and number of epochs, exact arithmetic", "why_tests_cant": "A test sees that the error decreases, which happens even if only one gate learns; that a gate never learns after any history, and that a gradient is wrong for every weight, are statements on all histories and real inputs", "anchors": ["src/neural_network/layer/neuron/GatedRecurrentUnit.cpp:GatedRecurrentUnit::train", "src/neural_network/layer/neuron/GatedRecurrentUnit.cpp:GatedRecurrentUnit::backOutput", "src/neural_network/layer/neuron/GatedRecurrentUnit.cpp:GatedRecurrentUnit::output", "src/neural_network/optimizer/StochasticGradientDescent.cpp:StochasticGradientDescent::updateWeights"]}
{"id": "C94", "title": "Dropout is right in expectation", "statement": "When the draws of the generator are independent and uniform in [0, 1), each neuron of a layer with a dropout of rate p is silenced by a pass of training that starts a new sequence with probability p, independently of the others; and what computeOutput answers is the mean of what the passes of training answer, for every network in which the layers after the first dropout are linear (whatever the layers before it, the number of dropouts and the history of the network).", "quantifier": "all architectures and depths with linear layers after the first layer with a dropout, all rates in [0, 1], all histories (calls, copies, files), all inputs, the whole law of the draws", "why_tests_cant": "the property is about a mean over a continuum of draws; a test can only sample some of them and accept a statistical error", "anchors": ["src/neural_network/optimizer/Dropout.cpp:applyAfterOutputForTraining", "src/neural_network/optimizer/Dropout.cpp:applyAfterOutputForTesting", "src/neural_network/layer/Layer.tpp:outputForTraining"]}
{"id": "C95", "title": "Shuffling is fair", "statement": "With an ideal random generator, after any history of shuffles and unshuffles, one more shuffle() (what every epoch of training begins with) puts the training data in each possible order with the same probability: 1/n! for n non-temporal examples; for a time series every order of the windows that fit; for sequential data every order of the sequences. For sequential data the library never changes the order (refuted).", "quantifier": "every data set of distinct examples of any size, every history of shuffles and unshuffles, every possible order", "why_tests_cant": "a test sees some orders; uniformity is a statement about all n! orders and all n! tuples of draws, and about every earlier history", "anchors": ["src/data/CompositeForNonTemporalData.cpp:shuffle", "src/data/CompositeForTimeSeries.cpp:shuffle", "src/data/CompositeForTemporalData.cpp:shuffle", "src/data/Data.cpp:Data::shuffle"]}
{"id": "C96", "title": "A network whose recurrent feedback is below 1 forgets its past", "statement": "In real arithmetic, for every well-formed architecture and after every history of calls: if every recurrent neuron has (slope bound of its activation) * |recurrent weight| <= q and every gated unit |v|/4 + |u| (1 + |w|/4) <= q (v, u, w the recurrent weights of its update, output and reset gates), then after two different sequences of computeOutput calls, whatever their lengths, the answers to one common sequence of inputs (any length, any temporal reset flags) differ after k answers by at most C rho^k, for every rho > q, with one constant C for all common sequences; so with q < 1 the past is forgotten. A new network whose recurrent layers are sigmoid Recurrence layers always meets the condition (q = 0.72), for all random draws.", "quantifier": "all well-formed architectures, histories, pairs of pasts, common sequences of inputs and reset flags, numbers of answers, tolerances, random draws", "why_tests_cant": "The claim is a limit over unbounded sequences and quantifies over all pairs of pasts and all weights below the bound; tests can only compare a few sequences.", "anchors": ["src/neural_network/layer/neuron/RecurrentNeuron.cpp:RecurrentNeuron::output", "src/neural_network/layer/neuron/GatedRecurrentUnit.cpp:GatedRecurrentUnit::output", "src/neural_network/StraightforwardNeuralNetwork.cpp:StraightforwardNeuralNetwork::computeOutput"]}
{"id": "C97", "title": "A small enough training step does not make the error of its example greater", "statement": "For a network of fully connected layers and an example where the network is differentiable, when the learning rate is small enough, training once on the example does not increase the squared error of the network on this example; in the limit of small rates the error does not change.", "quantifier": "every well-formed architecture of fully connected layers (any number of layers and neurons, every activation but iSigmoid), every random initialization, every example without kink, every small enough learning rate, every momentum", "why_tests_cant": "it is a statement about all learning rates below an unknown bound for every network and example: a test tries one rate", "anchors": ["src/neural_network/optimizer/StochasticGradientDescent.cpp:StochasticGradientDescent::updateWeights", "src/neural_network/NeuralNetwork.cpp:NeuralNetwork::trainOnce", "src/neural_network/layer/neuron/SimpleNeuron.cpp:SimpleNeuron::train"]}
{"id": "C98", "title": "Online training competes with every linear rule", "statement": "A single layer of linear neurons that answers every example of a sequence and then learns it makes, over the whole sequence, squared errors whose sum is at most a constant times the one of the best rule with as many coefficients chosen with hindsight, plus a constant that depends only on the first weights, the rule and the learning rate; in particular, when such a rule makes no error, the number of answers with a squared error of at least delta is bounded however long the sequence is.", "quantifier": "every layer size and input shape, every history of calls, every sequence of examples (even an adversarial one) of bounded inputs, every rule, every small enough learning rate", "why_tests_cant": "the bound holds for every sequence of every length, including sequences chosen against the network, and for every competing rule", "anchors": ["src/neural_network/optimizer/StochasticGradientDescent.cpp:StochasticGradientDescent::updateWeight", "src/neural_network/NeuralNetwork.cpp:NeuralNetwork::trainOnce", "src/neural_network/layer/FullyConnected.cpp:FullyConnected::computeTrain"]}
{"id": "C99", "title": "Training learns every training set that a rule of the network explains", "statement": "If some choice of the weights and biases of a single layer of linear neurons gives the expected outputs of all the training examples, then training with batches of one example brings the outputs of the network on all the examples as near as wanted to the expected ones, geometrically in the number of epochs, whatever the shuffles, the criteria, the evaluations and the calls between the trainings.", "quantifier": "every layer size and input shape, every history of calls before, every training set explained by a rule, every shuffle of every epoch, every sequence of train/evaluate/computeOutput/save calls, every small enough learning rate, every number of epochs", "why_tests_cant": "convergence is a statement about all numbers of epochs, all random orders and all training sets at once", "anchors": ["src/neural_network/StraightforwardNeuralNetwork.cpp:StraightforwardNeuralNetwork::trainSync", "src/neural_network/optimizer/StochasticGradientDescent.cpp:StochasticGradientDescent::updateWeight", "src/data/Data.cpp:Data::shuffle"]}
{"id": "C100", "title": "The counters of a training never overflow", "statement": "For every network, data, criterion and batch size, the `int` counters of `train` (current position, current epoch) never leave the range of `int`, so that the result is the one of counting with unbounded integers.", "quantifier": "every network, data of any size, batch size, number of epochs, arithmetic", "why_tests_cant": "Overflow needs about 2^30 examples or 2^31 epochs; no test can run them, and a run that is short of the boundary says nothing about it.", "anchors": ["src/neural_network/StraightforwardNeuralNetwork.cpp: trainSync", "include/snn/neural_network/StraightforwardNeuralNetwork.hpp: index, epoch"]}
{"id": "C101", "title": "The bitmap files show the values", "statement": "saveData2DAsBitmap, saveFilterLayersAsBitmap and saveFeatureMapsAsBitmap write valid 24-bit BMP files: headers that agree with the file, one file for each layer with pictures, and every pixel has the colour of its value (grey level 255 v of an output or input between 0 and 1; a level that grows with the weight, 128 for weight 0); everything else is black. The calls are refused during a training.", "quantifier": "every idle network, every data, every number, size and arrangement of the pictures, every value and weight", "why_tests_cant": "The file depends on all the sizes (padding of the rows, grid, wrap-around of the sizes in the headers) and values; a test compares a few files.", "anchors": ["src/neural_network/NeuralNetworkVisualization.cpp: saveAsBitmap", "src/neural_network/StraightforwardNeuralNetwork.cpp: saveFeatureMapsAsBitmap, saveData2DAsBitmap, saveFilterLayersAsBitmap", "src/external_library/bitmap/BitmapImage.hpp: save_image, set_pixel"]}
{"id": "C102", "title": "Training with bounded activations stays finite in single precision", "statement": "For a network of fully connected layers whose activations are logistic or hyperbolic tangents, on data, learning rate, momentum and sizes in declared ranges, no number of training steps and no sequence of calls takes a weight to infinity or NaN: every weight stays a finite float below a bound computed from the ranges alone (and not from the number of steps), computeOutput on an input in the ranges returns finite values between -1 and 1, and when the last layer is logistic isNan() never becomes true.", "quantifier": "every depth and width, every momentum up to 1, every data set in the ranges, every batch size up to 2^24, every number of epochs and every sequence of calls, with binary32 rounding of every operation", "why_tests_cant": "a finite number of training steps cannot show that the next million of them does not overflow: the bound rests on the absorption of small increments by the rounding, for every reachable weight", "anchors": ["src/neural_network/optimizer/StochasticGradientDescent.cpp update", "src/neural_network/layer/neuron/SimpleNeuron.cpp output/backOutput/train", "src/neural_network/NeuralNetwork.cpp trainOnce/isNan"]}
{"id": "C103", "title": "The calls that are not refused are safe while a network trains asynchronously", "statement": "After startTrainingAsync, any call on the network that does not throw (computeOutput, computeCluster, trainOnce, the copy constructor, operator==, summary, saveAs, the bitmap functions, the getters) can be made by the client thread without a data race with the training thread; in particular saveAs and the bitmap functions, which test isIdle, are either refused or safe.", "quantifier": "all networks, data sets, clients, sequences of calls and interleavings of the client with its training threads", "why_tests_cant": "a data race is a property of all the interleavings and of the order of memory accesses, not of the values that one run of a test sees", "anchors": ["src/neural_network/StraightforwardNeuralNetwork.cpp:StraightforwardNeuralNetwork::saveAs", "src/neural_network/StraightforwardNeuralNetwork.cpp:StraightforwardNeuralNetwork::startTrainingAsync", "include/snn/neural_network/StraightforwardNeuralNetwork.hpp:StraightforwardNeuralNetwork"]}
{"id": "C104", "title": "Before the first evaluation nothing is measured", "statement": "On a network that was just made, whatever calls are made other than an evaluation or a training: every result getter returns -1 and no result is flagged as better than before, isTraining() is false, the epoch, the index and the length of an epoch are 0, and getNumberOfTraining() is exactly the number of trainOnce calls; a new network has no NaN flag, does not save itself and has the default file name.", "quantifier": "every architecture and optimizer, every sequence of calls with every argument", "why_tests_cant": "the sequences of calls and their arguments are unbounded", "anchors": ["src/neural_network/StraightforwardNeuralNetwork.cpp:StraightforwardNeuralNetwork", "include/snn/neural_network/StatisticAnalysis.hpp:StatisticAnalysis", "src/neural_network/NeuralNetwork.cpp:trainOnce"]}
{"id": "C105", "title": "A network without hidden nonlinearity separates only what a plane separates", "statement": "A network whose hidden layers are all fully connected with the activation identity (any number, any sizes, any layer optimizers but softmax) answers, after every history of calls, copies, saves and loads, by the activation of affine forms of its inputs. So if an evaluation reports the accuracy 1, then for every label of a multiple classification a plane separates the testing examples that have the label from the others (increasing activation), and for every two classes of a classification a plane separates their testing examples (strictly increasing activation). In particular the accuracy on the four examples of the exclusive or is at most 3/4, whatever the training.", "quantifier": "all architectures of this form, initial weights, optimizers, histories of calls and testing sets, in exact arithmetic", "why_tests_cant": "The claim is about every training: a test that fails to learn the exclusive or for one seed and one number of epochs says nothing about the next one", "anchors": ["src/neural_network/NeuralNetwork.cpp: output, evaluate", "src/neural_network/layer/FullyConnected.cpp: computeOutput", "src/neural_network/StraightforwardNeuralNetwork.cpp: computeOutput, computeCluster, evaluate"]}
{"id": "C106", "title": "A silent ReLU neuron of the first hidden layer is dead", "statement": "Without momentum, a ReLU neuron of the first hidden layer whose weighted sum is not positive on any training input is never changed by training: whatever the calls that follow (training in any batch size and order, evaluation, inference, saving), its incoming weights stay what they are and it keeps answering 0 to these inputs.", "quantifier": "every network whose first hidden layer is a fully connected ReLU layer, every optimizer without momentum, every history, every later list of calls whose training inputs keep the neuron silent, every neuron of the layer", "why_tests_cant": "a test trains some networks for some epochs; the claim is about all later trainings, batch sizes, shuffles and data sets", "anchors": ["include/snn/neural_network/layer/neuron/activation_function/ReLU.hpp: derivative", "src/neural_network/optimizer/StochasticGradientDescent.cpp: updateWeights", "src/neural_network/layer/neuron/SimpleNeuron.cpp: output, train"]}
{"id": "C107", "title": "A time limit is respected", "statement": "When the criterion given to train contains a duration limit (N_ms, N_s, N_min, alone or in an || expression), the training makes no training step after a check of the clock that shows that the limit has passed, returns after at most one more check, does not return before the limit when the duration is the only criterion (unless a NaN stops it), and always returns.", "quantifier": "every network, data, batch size, evaluation frequency, history of calls and every clock (any sequence of times at the checks)", "why_tests_cant": "the behaviour depends on the times at which the clock is read: a test sees one schedule, and cannot wait for days", "anchors": ["src/neural_network/Wait.cpp: Wait::isOver, operator\"\"_ms", "src/neural_network/StraightforwardNeuralNetwork.cpp: trainSync, continueTraining"]}
{"id": "C108", "title": "You get the network that reached the requested accuracy", "statement": "Train a feedforward network with a criterion that contains an accuracy (a_acc, alone or in an || expression) and with evaluations. When train returns and getGlobalClusteringRate() is at least a, the network object itself is right on exactly that share of the testing examples: no training step was made after the evaluation that reached the accuracy. The same holds of getGlobalClusteringRateMax() when it first reaches a during that call.", "quantifier": "every feedforward architecture, history of calls, non temporal data, batch size, evaluation frequency, clock, draws", "why_tests_cant": "it needs the order of evaluations and updates in every training, whatever the moment at which the accuracy is reached", "anchors": ["src/neural_network/StraightforwardNeuralNetwork.cpp: trainSync, continueTraining, evaluate", "src/neural_network/Wait.cpp: Wait::isOver"]}
{"id": "C109", "title": "The example programs end, and success means learned", "statement": "Each example program of the repository and the program of the README ends without exception, fault or endless loop whatever the random numbers and the clock; when an example of the three feedforward ones returns EXIT_SUCCESS its network answers right on every example of its data; the accuracy that the README program retrieves is the real share of right answers when it is 90% or more.", "quantifier": "all random draws, all clocks that reach the time limit, all data of the README program", "why_tests_cant": "a run of an example shows one sequence of random numbers and one clock", "anchors": ["examples/ClassificationExample.cpp: classificationExample", "examples/MultipleClassificationExample.cpp: multipleClassificationExample", "examples/RegressionExample.cpp: regressionExample", "examples/RecurrenceExample.cpp: recurrenceExample", "README.md: Use"]}
{"id": "C110", "title": "The errors sent to the previous layer are the gradient", "statement": "When a recurrent neuron or a gated recurrent unit answered an input and then receives the error of its answer during back-propagation, the error it sends to the previous layer for each of its inputs is the received error times the derivative of its answer with respect to that input, so that the layers in front of it learn by gradient descent.", "quantifier": "every neuron or unit, every sequence of calls it received before, every input of the right size, every error, every input position", "why_tests_cant": "A numerical check of a gradient covers one set of weights and one input up to a tolerance; the claim is about every state a unit can reach and every input.", "anchors": ["src/neural_network/layer/neuron/RecurrentNeuron.cpp: RecurrentNeuron::backOutput", "src/neural_network/layer/neuron/GatedRecurrentUnit.cpp: GatedRecurrentUnit::backOutput"]}
{"id": "C111", "title": "A data object can be shared by several networks, one after the other", "statement": "Several networks may be evaluated and trained on one Data object, one call after the other: no evaluation and no training depends on what other networks did with the object before; none of them changes its examples, its testing set or its settings.", "quantifier": "every Data object of every nature and problem, every sequence of evaluations and trainings by any networks in any state, every following evaluation or training", "why_tests_cant": "A test compares two runs on one data set; whether a training leaves a trace in the data depends on the nature of the data, the batch buffers, the order and the offset left by all previous trainings.", "anchors": ["include/snn/data/Data.hpp: class Data", "src/data/Data.cpp: Data::shuffle, Data::unshuffle, Data::getTrainingData", "src/neural_network/StraightforwardNeuralNetwork.cpp: StraightforwardNeuralNetwork::trainSync"]}
{"id": "C112", "title": "What raising the precision or the separator does to the reported results", "statement": "In exact arithmetic, evaluate one network, in any state and of any architecture, on one data set of any temporal kind with two thresholds (setPrecision / setSeparator), the second not smaller than the first: the two evaluations both return or fail in the same way and leave the same layers. For a regression, the accuracy (getGlobalClusteringRate) with the larger precision is not smaller and the mean absolute and root mean squared errors are the same. For a classification, the accuracy and both errors are the same and the weighted accuracy (getWeightedClusteringRate) with the larger separator is not larger. For a multiple classification in which no expected value lies between the separators, the errors are the same and the weighted accuracy is not larger, while the accuracy can go either way.", "quantifier": "all networks in all states, data sets, environments, pairs of ordered thresholds", "why_tests_cant": "The results are compared for all networks, data and thresholds; tests evaluate a few networks at one threshold", "anchors": ["include/snn/data/Data.hpp setPrecision setSeparator", "src/data/Data.cpp setPrecision setSeparator", "src/neural_network/StatisticAnalysis.cpp evaluateOnceForRegression evaluateOnceForMultipleClassification evaluateOnceForClassification computeWeightedClusteringRate", "src/neural_network/StraightforwardNeuralNetwork.cpp evaluate evaluateOnce"]}
{"id": "C113", "title": "After normalize the units of the inputs do not matter", "statement": "In exact arithmetic: give a data object (any constructor, any problem and temporal kind) the same examples in other units, each input component x replaced by a*x+b with a positive a and a b of that component, in the training and the testing inputs alike. The constructor then accepts or refuses in the same way, and normalize(min, max) turns both objects into exactly the same object when every component takes at least two different values in the training inputs; every training, evaluation and prediction made with it afterwards is therefore the same.", "quantifier": "all data sets, all units (positive factors and shifts per component), all bounds min and max", "why_tests_cant": "It relates two runs for all data and all units; a test normalizes one data set", "anchors": ["include/snn/data/Data.hpp normalize", "src/data/Data.cpp normalize initialize flatten"]}
{"id": "C114", "title": "The order of the features does not matter", "statement": "In exact arithmetic: take a network whose first layer is fully connected, recurrent or gated, and the same network with the input weights of its first layer put in another order p. Give the first any history of trainings, evaluations and predictions, and the second the same calls with the features of every input of the data put in the order p. Then both histories fail in the same way or both succeed; in the second case all evaluations report the same statistics, the two networks have the same scores, flags and counters, they answer the same to any input (in its own order), and the learned weights of the second are those of the first in the order p. With 32-bit floats the claim is false, because sums are rounded in the order of the features.", "quantifier": "all architectures with such a first layer (any layers and layer optimizers after it), all permutations of the features, all histories of calls on rectangular data, all environments, initial draws", "why_tests_cant": "It relates two whole histories for all networks, data and permutations; a test trains one network on one data set", "anchors": ["src/neural_network/layer/neuron/Neuron.tpp", "src/neural_network/layer/neuron/SimpleNeuron.cpp output back train", "src/neural_network/layer/neuron/RecurrentNeuron.cpp output back updateWeights", "src/neural_network/layer/neuron/GatedRecurrentUnit.cpp output train", "src/neural_network/StraightforwardNeuralNetwork.cpp train evaluate computeOutput"]}
{"id": "C115", "title": "The order of the neurons of a hidden layer does not matter", "statement": "In exact arithmetic: let a layer of m fully connected, recurrent or gated neurons (with or without L1, L2 and error multiplier) be followed by another such layer, anywhere in a well-formed architecture. Take the network, and the same network with the m neurons of that layer in another order p and the input weights of the next layer in the same order. After the same history of trainings, evaluations and predictions either both histories failed in the same way, or: all evaluations reported the same statistics, both networks have the same scores, flags and counters, they give the same answer to every input, and the learned weights of the second are those of the first in the order p.", "quantifier": "all architectures with two such consecutive layers at any depth, all permutations of the hidden neurons, all histories of calls on rectangular data, all environments and draws", "why_tests_cant": "It relates two whole histories for all networks, data and permutations; a test trains one network on one data set", "anchors": ["src/neural_network/layer/SimpleLayer.tpp", "src/neural_network/layer/Layer.tpp getAverageOfAbsNeuronWeights getAverageOfSquareNeuronWeights", "src/neural_network/layer/neuron/SimpleNeuron.cpp backOutput", "src/neural_network/layer/neuron/RecurrentNeuron.cpp backOutput", "src/neural_network/layer/neuron/GatedRecurrentUnit.cpp backOutput", "src/neural_network/NeuralNetwork.cpp backpropagationAlgorithm"]}
{"id": "C116", "title": "The order of the outputs does not matter", "statement": "Reorder the expected outputs of every example of a regression or of a multiple classification, and the neurons of the last layer in the same way: after any history of trainings, evaluations and predictions the evaluations report the same accuracy, errors and flags, and the answers and the learned weights are the same in that order. (In exact arithmetic. For the predicted class the order matters when outputs are equal: the first is taken.)", "quantifier": "All well formed architectures that end with a fully connected, recurrent or gated layer without dropout and softmax, all orders of its neurons, all initial draws, all data for regression or multiple classification, all histories of calls.", "why_tests_cant": "A test compares two orders on one network and one data set; the property ranges over all the orders, histories and architectures.", "anchors": ["include/snn/layer/SimpleLayer.tpp: computeOutput, computeBackOutput, computeTrain", "src/neural_network/StatisticAnalysis.cpp: evaluateOnceForRegression, evaluateOnceForMultipleClassification, stopTesting", "src/neural_network/NeuralNetwork.cpp: calculateError, trainOnce", "src/neural_network/StraightforwardNeuralNetwork.cpp: train, evaluate, computeCluster"]}
{"id": "C117", "title": "A testing set can be evaluated in parts", "statement": "For a network without recurrent layers made from any accepted architecture and used in any way: the accuracy and the mean absolute error that evaluate reports on a testing set are the means of those reported on its parts (in any split, any number of parts, any order of the examples), weighted by their numbers of examples; and repeating every testing example the same number of times changes neither the accuracy, nor the weighted rate, the F1 score and the mean absolute error.", "quantifier": "every accepted feedforward architecture, every history of calls, every testing set, every split into parts and every number of repetitions (exact arithmetic)", "why_tests_cant": "a test evaluates one split of one testing set; a position skipped or counted twice only shows at some sizes and splits", "anchors": ["src/neural_network/StraightforwardNeuralNetwork.cpp evaluate", "src/neural_network/StatisticAnalysis.cpp startTesting", "src/neural_network/StatisticAnalysis.cpp stopTesting"]}
{"id": "C118", "title": "A feature that is always zero in the training data is never learned", "statement": "If a feature is 0 in every training input a network is ever trained on, the weight of this feature in every neuron of the first hidden layer (fully connected, recurrent or gated: in each gate) is, after any history of calls, exactly the random one the constructor drew: neither the training, nor the momentum, nor dropout, L1/L2 regularization or error multiplier moves it, so inputs with this feature still disturb the answers at random.", "quantifier": "every network whose first hidden layer is fully connected, recurrent or gated (any activation, layer optimizers, learning rate and momentum, any other layers), every neuron, every feature, every history of calls (trainings in batches, evaluations, outputs, saves), in exact arithmetic", "why_tests_cant": "It ranges over all networks, histories and training sets; a test sees one training", "anchors": ["src/neural_network/optimizer/StochasticGradientDescent.cpp: updateWeights", "src/neural_network/layer/neuron/SimpleNeuron.cpp: train", "src/neural_network/layer/neuron/RecurrentNeuron.cpp: train", "src/data/Data.cpp: getTrainingData, getBatchedData"]}
{"id": "C119", "title": "An error multiplier on the last layer is a factor of the learning rate", "statement": "Take layers without L1 or L2, the last of which is not a max pooling. In exact arithmetic, the network of these layers with the learning rate l*c, and the network with the learning rate l and one more optimizer ErrorMultiplier(c) at the head of those of the last layer, made with the same random draws and momentum, behave alike: after any history of trainings, evaluations, answers and saves they report the same statistics, use the same random draws, have the same scores and flags, give the same answers and have the same weights, or they fail in the same way.", "quantifier": "all layers of all kinds and sizes with any optimizers except L1 and L2, all l, c, momenta, random draws, shapes, histories of calls on rectangular data", "why_tests_cant": "tests compare one multiplier on one network; the claim is about every architecture and every history, including trainings with momentum, dropout, softmax and recurrent layers", "anchors": ["src/neural_network/optimizer/ErrorMultiplier.cpp: ErrorMultiplier::applyBeforeBackpropagation", "src/neural_network/optimizer/StochasticGradientDescent.cpp: StochasticGradientDescent::updateWeights", "include/snn/neural_network/layer/SimpleLayer.tpp", "src/neural_network/layer/FilterLayer.cpp"]}
{"id": "C120", "title": "An error multiplier of 0 freezes a layer and the ones before it", "statement": "If a layer of a network has an ErrorMultiplier optimizer of factor 0, and neither this layer nor the ones before it has an L1 or L2 regularization, then no training ever changes the weights of this layer or of the layers before it, while the layers after it may learn.", "quantifier": "every architecture, every position of the layer, every initial weights, learning rate and momentum, every history of trainings, evaluations and answers on any data", "why_tests_cant": "Freezing has to hold after every history of trainings on every data set, with the memory of every momentum; a test sees one history of one network.", "anchors": ["src/neural_network/optimizer/ErrorMultiplier.cpp: ErrorMultiplier::beforeBackpropagation", "src/neural_network/optimizer/StochasticGradientDescent.cpp: StochasticGradientDescent::updateWeights", "src/neural_network/StraightforwardNeuralNetwork.cpp: StraightforwardNeuralNetwork::train"]}
