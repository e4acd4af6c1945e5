#!/usr/bin/env python3
# Generates /verif/properties.jsonl (kept so that the list is edited in one place).
import json
P=[]
def p(title, statement, quantifier, why, *anchors):
    P.append(dict(id="C%02d"%(len(P)+1), title=title, statement=statement, quantifier=quantifier,
                  why_tests_cant=why, anchors=list(anchors)))
D="src/data/Data.cpp"; 
p("Shuffling never loses or duplicates a training example",
  "For non-temporal data, after any sequence of Data::shuffle() and Data::unshuffle() calls, the training inputs read through getTrainingData(0..n-1) are a permutation of the training inputs given to the constructor, and right after unshuffle() they are in the original order.",
  "every number of examples, every list of shuffle/unshuffle calls, every outcome of the random generator",
  "a test sees a handful of seeds and sizes; the claim ranges over every draw of the generator and every history of calls",
  D+": Data::unshuffle, Data::getTrainingData", "src/data/CompositeForNonTemporalData.cpp: shuffle", "include/snn/data/Set.hpp")
p("Inputs and expected outputs stay paired through every shuffle",
  "For every history of shuffles, getTrainingData(i) and getTrainingOutputs(i) return the input and the expected output of one and the same example of the constructor's arguments.",
  "every data set of any nature, every history of shuffle/unshuffle, every index",
  "pairing must survive every permutation the generator can produce",
  D+": getTrainingData, getTrainingOutputs", "src/data/CompositeForTimeSeries.cpp: shuffle", "src/data/CompositeForTemporalData.cpp: shuffle")
p("A batch is the mean of its examples",
  "With batchSize b > 1, getTrainingData(i,b) is, component by component, the arithmetic mean of the b examples at positions i..i+b-1 of the current order, and getTrainingOutputs(i,b) the mean of their expected outputs; the previous content of the internal batch buffer never shows.",
  "every batch size, position, order, and previous use of the batch buffer",
  "stale-buffer bugs depend on the history of earlier batches",
  D+": getTrainingData, getTrainingOutputs")
p("One epoch visits every example at most once, in disjoint batches",
  "During one epoch of train() with batch size b on n examples, exactly floor(n/b) training steps are made, at positions 0, b, 2b, ...; every position below b*floor(n/b) is in exactly one batch and no batch reads past the end.",
  "every n and b", "loop boundaries must be right for every size and batch size, not for the sampled ones",
  "src/neural_network/StraightforwardNeuralNetwork.cpp: trainSync")
p("Time-series shuffling keeps windows consecutive and eventually trains on every step",
  "For time series with R recurrences and n >= R+1 steps, after every shuffle: all positions read an existing step; every position that is trained on is either in the sequential prefix or the end of a window of R+1 consecutive steps whose first element is flagged as a new sequence; and over any R+1 consecutive shuffles every step is trained on at least once.",
  "every n, every R, every history of shuffles and every outcome of the generator",
  "coverage is a property of whole runs of R+1 shuffles under every permutation",
  "src/data/CompositeForTimeSeries.cpp: shuffle, isFirstTrainingDataOfTemporalSequence, needToTrainOnTrainingData")
p("Sequential data keep sequence boundaries",
  "For sequential data made of non-empty sequences, the flattened training and testing sets contain the inputs in the given order, an index is flagged as first of a sequence exactly when it is the start of one of the given sequences, and a testing index is evaluated exactly when it ends one; no history of shuffle() and unshuffle() ever splits a sequence or separates it from its flags.",
  "every list of sequences of every length", "boundaries are sums of arbitrary lengths",
  "src/data/Data.cpp: flatten, Data::Data(3D)", "src/data/CompositeForTemporalData.cpp")
p("Data accepted by the constructor can be read safely",
  "If the Data constructor returns, then for every index below the set sizes, reading an input and its expected output never accesses memory out of bounds, before and after any shuffles.",
  "every constructor argument, every history of shuffles, every index",
  "the guard must cover every malformed input",
  D+": Data::isValid, Data::initialize", "src/data/ProblemComposite.cpp", "src/data/CompositeForClassification.cpp")
p("normalize(min,max) maps training inputs into [min,max] and preserves order",
  "After normalize(min,max), every component of every training input is in [min,max], the same affine increasing map is applied to training and testing values of a component, and normalizing again with the same bounds changes nothing.",
  "every data set and every bounds", "must hold for every column, including constant ones",
  D+": normalize")
p("The class of a testing example is the first label equal to 1, and none is an error",
  "For classification data getTestingLabel(i) returns the smallest component whose expected value is 1 and throws when there is none.",
  "every label vector", "for every label vector",
  "src/data/CompositeForClassification.cpp: getTestingLabel")
p("Thresholds only exist where the problem uses them",
  "setPrecision/getPrecision succeed only for regression and setSeparator/getSeparator only for (multiple) classification; otherwise they throw and change nothing; a value set is the value read back by the evaluation.",
  "every problem type and value", "finite but history dependent (what was set before)",
  D+": setPrecision, getPrecision, setSeparator, getSeparator")
S="src/neural_network/StatisticAnalysis.cpp"
p("Confusion counts are conserved",
  "After evaluating any sequence of N examples without NaN since startTesting, for each label the numbers of true/false positives/negatives sum to N, and well classified + misclassified = N.",
  "every sequence of evaluations of every length", "must hold after every history of evaluations",
  S+": evaluateOnceForRegression, evaluateOnceForMultipleClassification, evaluateOnceForClassification")
p("A classification is right exactly when the expected class has the largest output",
  "evaluate for classification counts an example as well classified iff the index of the first largest output is the expected class.",
  "every output vector and class", "every vector of outputs, including very negative ones",
  S+": evaluateOnceForClassification")
p("Reported rates are proportions",
  "After evaluating at least one example, the global clustering rate, the weighted clustering rate and the F1 score are numbers between 0 and 1, and the global rate is exactly well / total.",
  "every sequence of evaluations", "0/0 cases depend on which classes occur",
  S+": computeGlobalClusteringRate, computeWeightedClusteringRate, computeF1Score")
p("Best metrics are the running optimum over all evaluations",
  "After any sequence of evaluations, the best global and weighted clustering rates are the maximum, the best F1 score the maximum, and the best mean absolute error and root mean squared error the minimum, of the values measured so far; the 'better than ever' flag is raised exactly when the newest value strictly improves on all earlier ones.",
  "every sequence of evaluation results", "history property of unbounded length",
  S+": stopTesting")
p("Mean absolute error and RMSE are the textbook means",
  "For regression the reported mean absolute error is (sum of |output - expected|)/N over labels and the RMSE the root of the mean of squared errors.",
  "every sequence of evaluations", "for every number of evaluations and labels",
  S+": computeMeanAbsoluteError, computeRootMeanSquaredError")
W="src/neural_network/Wait.cpp"
p("a || b stops as soon as one criterion is met",
  "Wait combined by || from epoch, accuracy, MAE and duration literals is over iff at least one of the literals alone is over, for every number and order of literals.",
  "every expression built with ||, every moment (epoch, rates, elapsed time)", "all expression trees and all moments",
  W+": operator||, isOver")
p("a && b stops only when all criteria are met",
  "Wait combined by && from literals is over iff all literals are over.",
  "every expression built with &&, every moment", "all expression trees and all moments",
  W+": operator&&, isOver")
p("Mixing && and || is rejected",
  "Every expression that mixes && and || throws instead of silently meaning something else.",
  "every expression tree", "all shapes of expression trees",
  W+": operator||, operator&&")
p("A waiting criterion, once over, stays over",
  "If isOver holds at some moment it holds at every later moment with at least as many epochs, at least as good accuracy, at most as large MAE and at least as much elapsed time.",
  "every Wait value and pair of moments", "pairs of arbitrary moments",
  W+": isOver")
N="src/neural_network/StraightforwardNeuralNetwork.cpp"
p("train(data, N_ep) performs exactly N epochs",
  "train with a positive epoch count N, and no NaN, returns after exactly N epochs of floor(size/batch) training steps each; getNumberOfTraining grows by N*floor(size/batch) on data that are always trained.",
  "every N, data size, batch size, evaluation frequency", "loop counts for every size",
  N+": train, trainSync, continueTraining")
p("train stops at the first evaluation that satisfies the criterion",
  "With an accuracy or error criterion train returns at the first epoch boundary where the criterion is met by the metrics of the last evaluation, and not before.",
  "every sequence of metrics", "depends on the run's history",
  N+": continueTraining, trainSync")
p("Invalid training requests are rejected without effect",
  "train/startTrainingAsync/evaluate throw on data whose sizes do not match the network, and on batch sizes below 1, above the data size, or different from 1 for temporal data; the network is left unchanged.",
  "every network, data set and batch size", "every combination of sizes",
  N+": validData, train, evaluate")
p("train leaves the network idle",
  "When train returns or its criterion ends it, isTraining() is false and a new train or saveAs is accepted.",
  "every run", "every run that returns",
  N+": trainSync, resetTrainingValues")
p("A NaN output freezes the network",
  "Once an output is not a number, isNan() stays true, no later training step changes a weight, training stops, and an evaluation reports NaN rates.",
  "every network and every later sequence of calls", "every later history",
  "src/neural_network/NeuralNetwork.cpp: output, outputForTraining, backpropagationAlgorithm", N+": evaluate")
p("Auto-save happens exactly when the accuracy improves",
  "With autoSaveWhenBetter set, an evaluation saves the network iff the new accuracy is strictly greater than every earlier one; otherwise it never writes.",
  "every sequence of evaluations", "history dependent",
  N+": evaluate")
p("Inference and evaluation never change parameters",
  "computeOutput, computeCluster and evaluate leave all weights, biases, momentum memories and structure unchanged.",
  "every network, input and sequence of calls", "every history and layer combination",
  "src/neural_network/NeuralNetwork.cpp: output", "include/snn/neural_network/layer/Layer.tpp: output")
p("Without recurrent layers computeOutput is a function of the input",
  "For a network without recurrent layers, computeOutput(x) returns the same value whatever was computed (inference or evaluation) before.",
  "every network, every history", "every history of calls",
  "src/neural_network/NeuralNetwork.cpp: output", "src/neural_network/layer/neuron/SimpleNeuron.cpp")
p("A temporal reset forgets the past",
  "After the temporal reset the outputs of a recurrent network depend only on the inputs given since.",
  "every history before the reset and every sequence after it", "every history",
  "src/neural_network/layer/neuron/RecurrentNeuron.cpp: reset", "src/neural_network/layer/neuron/GatedRecurrentUnit.cpp: reset")
p("There is at most one training worker",
  "Whatever sequence of startTrainingAsync, stopTrainingAsync and train calls a client makes, two training loops of one network never run at the same time.",
  "every interleaving of the client and workers", "all schedules",
  N+": startTrainingAsync, stopTrainingAsync")
p("stopTrainingAsync stops the training and returns",
  "After stopTrainingAsync() returns no training step occurs until the next start, and it returns under every fair schedule.",
  "every interleaving", "needs every schedule, including a stop issued before the worker's first instruction",
  N+": stopTrainingAsync, trainSync")
p("Save then load gives an equal network",
  "LoadFrom after saveAs of an idle network yields a network equal to the saved one, with the same parameters, counters and metrics, that computes the same outputs.",
  "every network of every architecture and state", "every state, including mid-run autosaves",
  "include/snn/neural_network/StraightforwardNeuralNetwork.hpp: serialize", N+": saveSync, loadFrom")
p("A copy equals its original and is independent of it",
  "The copy constructor yields an equal network; training or using either one afterwards never changes the other.",
  "every network, every later history on both", "every later interleaving of calls",
  N+": copy constructor", "src/neural_network/NeuralNetwork.cpp: copy constructor", "src/neural_network/layer/neuron/Neuron.cpp")
p("Network equality is an equivalence",
  "operator== on networks is reflexive, symmetric and transitive and never reads out of bounds.",
  "every pair/triple of networks", "every pair",
  N+": operator==", "include/snn/neural_network/layer/Layer.tpp: operator==")
p("computeOutput returns the declared number of outputs",
  "For every accepted architecture, computeOutput on an input of the declared size succeeds and returns exactly getNumberOfOutputs() values.",
  "every architecture accepted by the constructor", "every composition of layers and shapes",
  "src/neural_network/layer/LayerFactory.cpp", "src/neural_network/NeuralNetwork.cpp: output, getNumberOfOutputs")
p("Fully connected layers compute activation(weights * input + bias)",
  "Output j of a fully connected layer is activation(sum_i w_ji x_i + w_jb * b).",
  "every layer size, weights and input", "every size",
  "src/neural_network/layer/neuron/SimpleNeuron.cpp", "include/snn/neural_network/layer/SimpleLayer.tpp")
p("1D convolution is the valid cross-correlation",
  "Output at position k of filter f of Convolution1D is activation(sum_{j<K, c<C} w_f[j,c] * x[k+j, c] + bias), for each of the X-K+1 positions.",
  "every shape, kernel, filters", "index arithmetic for all shapes",
  "src/neural_network/layer/Convolution1D.cpp")
p("2D convolution is the valid cross-correlation",
  "Same in two dimensions, for rectangular inputs too.",
  "every shape, kernel, filters", "index arithmetic for all shapes",
  "src/neural_network/layer/Convolution2D.cpp")
p("Locally connected layers apply one neuron per tile",
  "LocallyConnected1D/2D split the input in ceil(X/K) (x ceil(Y/K)) tiles; output of tile t, filter f uses its own weights on the tile's inputs, with zero padding at the border.",
  "every shape, kernel, filters, non-square too", "index arithmetic for all shapes",
  "src/neural_network/layer/LocallyConnected1D.cpp", "src/neural_network/layer/LocallyConnected2D.cpp")
p("Max pooling returns the maximum of each tile",
  "MaxPooling1D/2D output for each tile and channel is the maximum of the existing inputs of the tile, and errors are sent back to the position of that maximum only.",
  "every shape, kernel and input", "index arithmetic for all shapes",
  "src/neural_network/layer/MaxPooling1D.cpp", "src/neural_network/layer/MaxPooling2D.cpp")
p("One training step is a step of gradient descent",
  "For fully connected networks of any depth, without momentum, one training step changes each weight by -learningRate times the partial derivative of the squared error at that weight.",
  "every depth, widths, weights, input, expected output", "for every network and point",
  "src/neural_network/NeuralNetwork.cpp: backpropagationAlgorithm", "src/neural_network/layer/neuron/SimpleNeuron.cpp", "src/neural_network/optimizer/StochasticGradientDescent.cpp")
p("SGD with momentum follows its recurrence",
  "Every weight follows delta_t = lr * error * input + momentum * delta_{t-1}; w_t = w_{t-1} + delta_t over every sequence of updates, the bias weight too.",
  "every sequence of updates", "unbounded histories",
  "src/neural_network/optimizer/StochasticGradientDescent.cpp")
p("Recurrent neurons are updated on all their weights",
  "In a recurrent neuron's update each input weight, the recurrent weight and the bias weight change by the increment computed for it.",
  "every neuron and update", "every size",
  "src/neural_network/optimizer/StochasticGradientDescent.cpp: updateWeights(RecurrentNeuron)")
p("Stored inputs are replayed in order",
  "During backpropagation of a layer whose neurons serve several positions (convolution), each position uses the inputs it saw in the matching forward pass, for every number of rounds.",
  "every number of positions and rounds of forward/backward", "unbounded rounds",
  "src/neural_network/layer/neuron/CircularData.cpp")
A="src/neural_network/layer/neuron/activation_function/"
p("Each activation's derivative is the derivative of its function",
  "For each activation, derivative(x) is the mathematical derivative of function at x wherever it exists, and outputs stay in the declared [min,max].",
  "every real x and every activation", "continuous domain",
  "include/snn/neural_network/layer/neuron/activation_function/Sigmoid.hpp", "include/snn/neural_network/layer/neuron/activation_function/ImprovedSigmoid.hpp", "include/snn/neural_network/layer/neuron/activation_function/Tanh.hpp", "include/snn/neural_network/layer/neuron/activation_function/ReLU.hpp", "include/snn/neural_network/layer/neuron/activation_function/GELU.hpp", "include/snn/neural_network/layer/neuron/activation_function/Gaussian.hpp", "include/snn/neural_network/layer/neuron/activation_function/Identity.hpp", A+"ActivationFunction.cpp")
p("Softmax outputs a probability distribution",
  "For raw outputs that are numbers, after Softmax the outputs are in [0,1], sum to 1, keep the order of the raw outputs, and do not change if a constant is added to all of them.",
  "every output vector", "continuous domain of every length",
  "src/neural_network/optimizer/Softmax.cpp")
p("Dropout drops or keeps, consistently",
  "In training a Dropout layer either zeroes an output or leaves it unchanged; the same positions are zeroed in the errors of the matching backpropagation; inference scales every output by 1 - p; no other state changes.",
  "every mask and vector", "every random draw",
  "src/neural_network/optimizer/Dropout.cpp")
p("Error optimizers only scale or shift errors as documented",
  "ErrorMultiplier multiplies each error by its factor; L1/L2 regularisation add the factor times the average absolute/squared weight to every error; none changes outputs.",
  "every layer and error vector", "every size",
  "src/neural_network/optimizer/ErrorMultiplier.cpp", "src/neural_network/optimizer/L1Regularization.cpp", "src/neural_network/optimizer/L2Regularization.cpp")
p("The GRU output is a gated blend and stays bounded",
  "The output of a GRU neuron is (1-z)*previous + z*candidate with z in [0,1], hence stays in [-1,1] for every sequence of inputs; the previous output it blends with is its output at the previous time step.",
  "every input sequence and weights", "unbounded sequences",
  "src/neural_network/layer/neuron/GatedRecurrentUnit.cpp: output")
p("Architectures are rejected exactly when malformed",
  "The network constructor throws on an empty architecture, a missing or misplaced Input, empty or too large shapes, kernels larger than the input, and otherwise builds layers whose input size is the previous layer's output size.",
  "every architecture description", "every composition",
  "src/neural_network/layer/LayerFactory.cpp", "include/snn/neural_network/layer/LayerFactory.hpp", "src/neural_network/NeuralNetwork.cpp: isValid")
p("The predicted class is an index of the outputs",
  "computeCluster returns the first index of the largest output.",
  "every network and input", "every output vector",
  N+": computeCluster")
p("Weights set are the weights used",
  "setWeights with the right number of values is read back by getWeights and used by the next output; a wrong number of values throws and changes nothing.",
  "every neuron and weight vector", "every size",
  "src/neural_network/layer/neuron/Neuron.cpp: setWeights, getWeights")
T="include/snn/tools/Tools.hpp"
p("Flat indices and coordinates are inverse to each other",
  "flatten(x,y[,z]) is injective on its box and roughenX/Y/Z recover the coordinates.",
  "every size and coordinate", "every size",
  T+": flatten, roughenX, roughenY, roughenZ")
p("Vector helpers compute what they say",
  "getMinValue/getMaxValue return the extreme of every non-empty vector; flatten of nested vectors concatenates; toConstSizeString has the requested length; randomBetween stays in [min,max).",
  "every vector and every random draw", "every length",
  T, "src/tools/Tools.cpp")
p("Filter visualisation draws each weight in its own pixel",
  "In the filter bitmap, every filter's weight is drawn in bounds and no two (filter, weight) pairs share a pixel; the picture of filter f reads only the weights of filter f.",
  "every layer shape", "every shape",
  "src/neural_network/NeuralNetworkVisualization.cpp")
p("Weights explode or vanish: validity of neurons is reported",
  "isValid of a network returns 0 if and only if every parameter is in its range, and otherwise the code of the first violation in this order: the layers have 1 to 2073600 inputs (101), there are 1 to 1000 layers (102), the learning rate is in (0,1) (103), the momentum in [0,1] (104); then layer by layer, the neurons have the number of inputs of the layer (203), the shape multiplies to the number of outputs (202), there are 1 to 1000000 neurons (201), a pooling has positions (204), and neuron by neuron the bias and the weights are in [-100000,10000] (301, 303), there are 1 to 1000000 weights (302), a recurrent neuron has two more weights than inputs (304). NaN parameters and dropout rates outside [0,1] are rejected too.",
  "every network", "every combination of violations",
  "src/neural_network/NeuralNetwork.cpp: isValid", "src/neural_network/layer/neuron/Neuron.cpp: isValid", "src/neural_network/optimizer/StochasticGradientDescent.cpp: isValid")
p("A convolution trains with the gradient of its output",
  "For a convolution layer the error sent back to input i is the sum, over every output position and kernel offset touching i, of error * activation' * weight.",
  "every shape, kernel, filters", "index arithmetic for all shapes",
  "src/neural_network/layer/Convolution1D.cpp: computeBackOutput", "src/neural_network/layer/Convolution2D.cpp: computeBackOutput")
p("Evaluation metrics are independent of the order of testing examples",
  "For a network without recurrent layers whose outputs on the testing set are numbers, permuting the testing set does not change any confusion count of evaluate.",
  "every permutation of every testing set", "all permutations",
  S, N+": evaluate")
p("Counting stays exact",
  "The counts behind accuracy stay exact for every number of evaluated examples.",
  "every number of evaluations", "the failure needs more than sixteen million evaluations of one set",
  "include/snn/neural_network/StatisticAnalysis.hpp: binaryClassification (float counters)")
p("Training and inference on fitting data never fault",
  "For every well formed architecture whose last layer is made of neurons (dense, recurrent, gated recurrent or locally connected; convolutions and poolings only before it) and every history of train, evaluate, computeOutput and computeCluster calls whose data and inputs have the network's sizes, no call reads or writes out of bounds, throws or divides by zero: every call returns, or runs on because its wait condition is not met yet.",
  "every accepted architecture, every fitting data set, every call history and every sequence of random draws", "all architectures and unbounded call histories",
  N+": train, evaluate, computeOutput, computeCluster", "src/neural_network/NeuralNetwork.cpp", "src/neural_network/layer")
p("An auto-saved network can be loaded, trained and saved",
  "A network loaded from a file written by auto-save is an idle network: train and saveAs accept it like the network that wrote it.",
  "every training run with auto-save on, every auto-save point", "every point of the run at which the process may stop",
  N+": saveSync, evaluate, train, saveAs, loadFrom")
p("Networks that compare equal behave alike",
  "If two networks compare equal with operator==, they give the same outputs for every sequence of inputs.",
  "every pair of networks and every input sequence", "every pair of states",
  N+": operator==", "include/snn/neural_network/layer/Layer.tpp: operator==")
p("train is the sequential training run",
  "Called on an idle network with no training thread, train(data, wait) returns in the state the same training run reaches when executed alone from start to end; no interleaving of the training thread and the calling thread changes the result.",
  "every schedule of the calling thread and the training thread, every data set and wait", "every interleaving",
  N+": train, startTrainingAsync, waitFor, stopTrainingAsync")
p("waitFor waits for the training that was just started",
  "After startTrainingAsync, waitFor(n epochs) returns only when the training just started has completed n epochs.",
  "every schedule, every earlier training history", "every interleaving and every earlier history",
  N+": startTrainingAsync, waitFor, resetTrainingValues", "src/neural_network/Wait.cpp: isOver")
p("Output and input bitmaps show each value in its own pixel",
  "The bitmap of the outputs of a filter layer shows output (filter f, column i, row j) at pixel (i, j) of picture f, the pictures are side by side with a black line between them, no two outputs share a pixel and nothing is drawn outside of the image; the bitmap of an input with one or three channels shows at pixel (i, j) the values of the channels at (i, j).",
  "every number of filters, every picture size, every vector of outputs", "the index arithmetic must hold for every shape and number of filters",
  "src/neural_network/NeuralNetworkVisualization.cpp: saveAsBitmap")
p("Only training teaches: nothing leaks from evaluations and inferences",
  "Two programs that start from the same network and give it the same trainings (same training examples, criterion without metrics, batch size and random order) end with the same parameters and answers, whatever the testing sets, the evaluation frequencies, and the inferences, evaluations and saves in between.",
  "every feedforward architecture, every pair of call histories with the same lessons", "a property of pairs of unbounded histories",
  N+": train, evaluate, computeOutput, computeCluster", "src/data/Data.cpp")
p("The reported accuracy is the fraction of testing examples the network gets right",
  "After evaluate on a non-temporal data set, for a network without recurrent layers and in exact arithmetic, getGlobalClusteringRate is the number of testing examples on which the network answers correctly divided by their number: computeCluster gives the class of the example (classification), every output is on the right side of the separator (multiple classification), every output is within the precision (regression).",
  "every feedforward architecture, every earlier call history, every fitting data set, every random draw", "end to end over all architectures, histories and data sets",
  N+": evaluate, computeOutput, computeCluster, getGlobalClusteringRate", S)
p("Evaluating again without learning gives the same metrics",
  "For a network without recurrent layers, evaluating the same data set a second time, after any inferences, evaluations and saves but no training, reports the same counts, rates and errors, does not raise the best rate and does not auto-save.",
  "every feedforward architecture, every earlier history, every idle history between the two evaluations", "unbounded histories before and between",
  N+": evaluate", S)
p("A network keeps the structure of its architecture",
  "Every network a program can hold (made from a well formed architecture, then trained, evaluated, copied, saved and loaded in any order) has the layers of the architecture: their kinds, sizes, kernels, layer optimizers, activations and numbers of weights; the learning rate and momentum are those given to the constructor.",
  "every well formed architecture and every program",
  "unbounded histories of calls, copies and loads",
  "src/neural_network/layer/LayerFactory.cpp: build",
  "src/neural_network/NeuralNetwork.cpp")
p("Reported sizes are those of the architecture",
  "getNumberOfLayers, getNumberOfInputs, getNumberOfNeurons and getNumberOfParameters are the number of layers after the input, the size of the input, and the numbers of neurons and weights of the architecture: n neurons with one weight per input and a bias weight for a dense layer, one more for a recurrent one, three times that for a gated one, one neuron per filter for a convolution and one per filter and tile for a locally connected layer, with kernel size (squared) times channels and one weights.",
  "every well formed architecture and every program",
  "all sizes, including those whose counts exceed an int",
  "src/neural_network/NeuralNetwork.cpp: getNumberOfLayers, getNumberOfInputs, getNumberOfNeurons, getNumberOfParameters",
  "include/snn/neural_network/layer/Layer.tpp: getNumberOfParameters")
p("summary() describes the network",
  "For a network of any well formed architecture, after any history of calls, copies and loads, summary() returns the name, the number of parameters, the epochs and training steps so far, then for each layer in order its kind, input shape, neurons or filters and kernel, parameters, activation, output shape and layer optimizers as given in the architecture, then the optimizer and its settings.",
  "All well formed architectures, all histories, all ways to print a float",
  "The text depends on every layer kind, shape and history; tests compare the text of a few networks",
  "src/neural_network/StraightforwardNeuralNetwork.cpp: StraightforwardNeuralNetwork::summary",
  "src/neural_network/layer/FullyConnected.cpp: summary", "src/neural_network/layer/Recurrence.cpp: summary", "src/neural_network/layer/GruLayer.cpp: summary", "src/neural_network/layer/Convolution1D.cpp: summary", "src/neural_network/layer/Convolution2D.cpp: summary", "src/neural_network/layer/LocallyConnected1D.cpp: summary", "src/neural_network/layer/LocallyConnected2D.cpp: summary", "src/neural_network/layer/MaxPooling1D.cpp: summary", "src/neural_network/layer/MaxPooling2D.cpp: summary",
  "src/neural_network/optimizer/Dropout.cpp: summary", "src/neural_network/optimizer/L1Regularization.cpp: summary", "src/neural_network/optimizer/L2Regularization.cpp: summary", "src/neural_network/optimizer/ErrorMultiplier.cpp: summary", "src/neural_network/optimizer/Softmax.cpp: summary", "src/neural_network/optimizer/StochasticGradientDescent.cpp: summary")
p("getNumberOfTraining counts the training steps",
  "Over any history of calls getNumberOfTraining() grows by exactly the number of training steps made (batches given to backpropagation), for every kind of data, batch size, stopping criterion and number of calls to train; a new network has 0; outputs, evaluations and saves do not count; copies and loaded networks keep the value.",
  "All networks, data, histories of calls, clocks and shuffles",
  "The count must be right for every mixture of calls, stopping points and temporal data",
  "src/neural_network/NeuralNetwork.cpp: NeuralNetwork::trainOnce, NeuralNetwork::getNumberOfTraining",
  "src/neural_network/StraightforwardNeuralNetwork.cpp: trainSync")
p("A network's outputs stay in the range promised by its last layer",
  "On every input and after every history of construction, training, evaluation, copies, saves and loads, every value returned by computeOutput is: in [0,1] if the last layer that is not a pooling uses sigmoid or gaussian; in [-1,1] if it uses tanh or is a GruLayer; not negative if it uses ReLU (with any layer optimizers but Softmax, dropout rates in [0,1]). If the last layer ends with Softmax the values are positive and sum to 1. For such last layers of neurons computeCluster always answers with the index of the first largest output, never -1. (Exact real arithmetic.)",
  "every well-formed architecture of any depth and mix of layers, every history, every input, with or without temporal reset",
  "The weights reached by training and the inputs are unbounded; tests observe a few outputs of a few networks",
  "src/neural_network/NeuralNetwork.cpp: NeuralNetwork::output",
  "src/neural_network/layer/SimpleLayer.cpp: computeOutput", "src/neural_network/layer/Convolution1D.cpp: computeOutput", "src/neural_network/layer/Convolution2D.cpp: computeOutput", "src/neural_network/layer/LocallyConnected1D.cpp: computeOutput", "src/neural_network/layer/LocallyConnected2D.cpp: computeOutput", "src/neural_network/layer/MaxPooling1D.cpp: computeOutput", "src/neural_network/layer/MaxPooling2D.cpp: computeOutput",
  "include/snn/neural_network/layer/neuron/activation_function/Sigmoid.hpp", "include/snn/neural_network/layer/neuron/activation_function/ImprovedSigmoid.hpp", "include/snn/neural_network/layer/neuron/activation_function/Tanh.hpp", "include/snn/neural_network/layer/neuron/activation_function/ReLU.hpp", "include/snn/neural_network/layer/neuron/activation_function/GELU.hpp", "include/snn/neural_network/layer/neuron/activation_function/Gaussian.hpp", "include/snn/neural_network/layer/neuron/activation_function/Identity.hpp",
  "src/neural_network/StraightforwardNeuralNetwork.cpp: computeOutput, computeCluster")
p("The log tells what happened and changes nothing",
  "With any level of `verbose` and any clock, train returns, throws and saves exactly as with verbose = none; the lines with the accuracy printed at a visible level are, in order, the evaluations made by the training, each with its epoch, clustering rate, mean absolute error and whether the network was saved; nothing is printed at the level none; each progress line shows a position inside the set it names (training or testing), and the epochs shown never decrease. The same holds for evaluate(data).",
  "All levels, clocks, networks, data, criteria and batch sizes",
  "The library is tested with one level; the lines depend on the timing",
  "include/snn/neural_network/StraightforwardNeuralNetwork.hpp: logAccuracy, logInProgress, evaluate",
  "include/snn/tools/Tools.hpp: log",
  "src/neural_network/StraightforwardNeuralNetwork.cpp: trainSync, evaluate",
  "src/neural_network/Wait.cpp: tick, tack, getDuration")
p("The progress counters tell the progress",
  "After train returns, getCurrentEpoch() is the number of epochs made, getCurrentIndex() is 0 and getNumberOfTrainingsBetweenTwoEvaluations() is the number of training examples; setNumberOfTrainingsBetweenTwoEvaluations sets how many training examples are seen between two evaluations.",
  "All networks, data, criteria without duration, batch sizes and histories",
  "The counters must be right at every point where training can stop",
  "include/snn/neural_network/StraightforwardNeuralNetwork.hpp: getCurrentIndex, getCurrentEpoch, getNumberOfTrainingsBetweenTwoEvaluations, setNumberOfTrainingsBetweenTwoEvaluations",
  "src/neural_network/StraightforwardNeuralNetwork.cpp: trainSync, resetTrainingValues")
p("A recurrent layer computes the Elman recurrence",
  "The outputs of a Recurrence layer on a sequence of inputs are those of h(t) = f(W x(t) + U h(t-1) elementwise + b): each neuron feeds back only its own last output, starting from 0 when the layer is new and from the last answer afterwards, with the weights the layer has at that moment.",
  "Every number of neurons, every activation, every sequence of inputs of any length, every previous use of the layer (outputs, training, backpropagation), every arithmetic (floats included)",
  "The output depends on the whole history of inputs; tests see a few short sequences",
  "src/neural_network/layer/neuron/RecurrentNeuron.cpp: output",
  "src/neural_network/layer/SimpleLayer.cpp: computeOutput", "src/neural_network/layer/Recurrence.cpp")
p("Filters see only their window and convolutions are the same everywhere",
  "An output of a convolution (1D, 2D) or of a 1D locally connected layer depends only on the inputs in its window; and two positions of a convolution whose windows hold the same values (in the same input or in two inputs) have exactly the same outputs: translating the input translates the output.",
  "Every number of filters, kernel, shape, activation, weights reached by any use of the layer, every pair of inputs and positions, every arithmetic (floats included)",
  "The claim relates two arbitrary inputs and all positions; tests compare a few numbers",
  "src/neural_network/layer/Convolution1D.cpp: createInputsForNeuron, computeOutput",
  "src/neural_network/layer/Convolution2D.cpp",
  "src/neural_network/layer/LocallyConnected1D.cpp",
  "src/neural_network/layer/FilterLayer.cpp")
p("Neutral layer optimizers change nothing",
  "Adding or removing, anywhere in an architecture, L1Regularization(0), L2Regularization(0) or ErrorMultiplier(1) changes nothing a client can see: the constructors fail in the same way or make, with the same random numbers, two networks that give the same answers to every sequence of calls (outputs, clusters, trainings, evaluations, saves), show the same values and always have the same weights. (Exact arithmetic.)",
  "All architectures, all positions of the optimizers, all optimizers, random numbers, sequences of calls of any length",
  "The claim relates two architectures over all histories; tests train a few networks",
  "src/neural_network/optimizer/L1Regularization.cpp", "src/neural_network/optimizer/L2Regularization.cpp", "src/neural_network/optimizer/ErrorMultiplier.cpp",
  "include/snn/neural_network/layer/Layer.tpp: output, outputForTraining, backOutput, train",
  "src/neural_network/optimizer/LayerOptimizerFactory.cpp: build")
p("A convolution that covers its input is a locally connected layer",
  "Replacing, anywhere in an architecture, a Convolution whose kernel has the size of its input by a LocallyConnected with the same filters, kernel, activation and optimizers changes nothing a client can see: same answers to every sequence of calls, same values, same weights after each call, in every arithmetic.",
  "All architectures with 1D or 2D inputs at any depth, all optimizers, random numbers, sequences of calls of any length",
  "The claim relates two implementations (four classes) over all histories",
  "src/neural_network/layer/Convolution1D.cpp: computeOutput, computeBackOutput, computeTrain", "src/neural_network/layer/Convolution2D.cpp: computeOutput, computeBackOutput, computeTrain", "src/neural_network/layer/LocallyConnected1D.cpp: computeOutput, computeBackOutput, computeTrain", "src/neural_network/layer/LocallyConnected2D.cpp: computeOutput, computeBackOutput, computeTrain",
  "src/neural_network/layer/LayerFactory.cpp: build")
p("Full-batch training does not depend on the order of the examples",
  "Training with a batch size equal to the number of training examples gives the same network, the same metrics, the same events and the same saved files whatever the order in which the training examples were given, whatever shuffles were made before, and whatever the random generator that shuffles them at each epoch (exact arithmetic).",
  "every list of non temporal examples of equal sizes and every permutation of it, every history of shuffles, every network, waiting criterion, evaluation frequency and pair of random generators",
  "a test compares a few permutations of one data set; it cannot quantify over all permutations, shuffles and architectures",
  "include/snn/data/Data.hpp:Data",
  "src/data/Data.cpp:Data::getTrainingData",
  "src/data/ProblemComposite.cpp:ProblemComposite::getTrainingOutputs",
  "src/neural_network/StraightforwardNeuralNetwork.cpp:StraightforwardNeuralNetwork::trainSync")
p("A batch is learned like the mean of its examples, not like the mean of their gradients",
  "A training step on a batch of b examples changes the network as the mini-batch gradient would, that is by the mean of the updates of its examples.",
  "every network, every data set, every position and batch size",
  "the equality must hold for every network and batch; a test of one linear neuron with a non centred batch can pass",
  "src/data/Data.cpp:Data::getTrainingData",
  "src/data/ProblemComposite.cpp:ProblemComposite::getTrainingOutputs",
  "src/neural_network/StraightforwardNeuralNetwork.cpp:StraightforwardNeuralNetwork::trainSync")
p("Initial weights are independent draws of the documented distribution",
  "In a network that was just constructed every weight of every neuron is a function of one random draw, uniform between -2.4/sqrt(n) and 2.4/sqrt(n) where n is the number of weights of the neuron (not negative for the weight of the bias), and no two weights of the network come from the same draw.",
  "every architecture the constructor accepts, every stream of random draws",
  "a test samples a few networks and can only see that weights look different and small",
  "src/neural_network/layer/neuron/Neuron.cpp:Neuron::randomInitializeWeight",
  "src/neural_network/layer/neuron/GatedRecurrentUnit.cpp:GatedRecurrentUnit",
  "src/neural_network/layer/LayerFactory.cpp:LayerFactory::build",
  "src/tools/Tools.cpp:randomBetween")
p("The rates reported after an evaluation are the documented statistics",
  "After an evaluation of a classification or multi-label network getWeightedClusteringRate is the mean over the labels of the recall, getF1Score the mean over the labels of the F1 score, and getMeanAbsoluteError the mean over the testing examples of the absolute error; if every example is classified right the rates are 1.",
  "every feedforward network in every reachable state, every data set and separator",
  "a test compares a few data sets; the formulas must hold for every confusion table, including labels without examples",
  "src/neural_network/StatisticAnalysis.cpp:StatisticAnalysis::computeWeightedClusteringRate",
  "src/neural_network/StatisticAnalysis.cpp:StatisticAnalysis::computeF1Score",
  "src/neural_network/StatisticAnalysis.cpp:StatisticAnalysis::evaluateOnceForClassification")
p("A crash never leaves a wrong network, and one network can still be loaded",
  "If the process crashes at any moment of any run, in particular in the middle of a save or an auto-save, then afterwards loadFrom(path) gives the previously saved network or the new one, complete; it never gives a mixture of both, a network with other weights, or undefined behaviour.",
  "every run, every crash point (every byte written), every path",
  "a test cannot crash the program at every byte of every save",
  "src/neural_network/StraightforwardNeuralNetwork.cpp:StraightforwardNeuralNetwork::saveSync",
  "src/neural_network/StraightforwardNeuralNetwork.cpp:StraightforwardNeuralNetwork::loadFrom",
  "src/neural_network/StraightforwardNeuralNetwork.cpp:StraightforwardNeuralNetwork::saveAs")
p("Training on a perfectly answered example changes nothing",
  "A training step whose expected outputs are exactly the answers the network gives has a zero error for every output, so it changes no weight: the network answers every input afterwards as it did before.",
  "every feedforward network that ends with neurons, has no L1/L2 penalty and no momentum, in every reachable state; every input; the expected outputs equal to the answers",
  "a test tries a few networks; the claim is about every architecture, every state and every input",
  "src/neural_network/StraightforwardNeuralNetwork.cpp: trainOnce",
  "src/neural_network/NeuralNetwork.cpp: trainOnce, calculateError",
  "src/neural_network/layer/neuron/SimpleNeuron.cpp: train",
  "src/neural_network/optimizer/StochasticGradientDescent.cpp: updateWeights")
p("Training can be interrupted and resumed",
  "Training a network for N epochs and then for M epochs, on the same data and with the random generators going on, gives the same network as training it for N+M epochs: the same parameters, the same number of trainings, the same answers. What is done in between (inferences, evaluations, saving) and how often the trainings are evaluated does not matter, and in between the network may be saved and loaded by another process.",
  "every architecture, every history before, every N and M, every data set, batch size, evaluation frequency and pause",
  "a test compares a few runs; the claim is about every architecture, history, pair of lengths and pause",
  "src/neural_network/StraightforwardNeuralNetwork.cpp: train, trainSync, saveAs, loadFrom",
  "src/data/Data.cpp: shuffle")
p("A classifier that ends with Softmax descends the cross-entropy",
  "For every architecture of fully connected, locally connected and max pooling layers that ends with a fully connected layer with Softmax, after every history of calls, one training step on expected outputs that sum to 1 moves every weight, biases included, by minus the learning rate times the partial derivative at this weight of the (doubled) cross-entropy of the probabilities that the network answers.",
  "all such architectures (any depth, widths, activation functions but ImprovedSigmoid), all draws, all histories of calls, all inputs where the network is differentiable, all expected outputs that sum to 1, all weights",
  "the derivative is a limit over all small changes of each of the weights, at every state that training can reach",
  "src/neural_network/optimizer/Softmax.cpp:computeSoftmax",
  "src/neural_network/optimizer/Softmax.cpp:applyBeforeBackpropagation",
  "src/neural_network/NeuralNetwork.cpp:backpropagationAlgorithm",
  "src/neural_network/NeuralNetwork.cpp:calculateError")
p("A layer of linear neurons learns one example by heart",
  "For every network of one layer of linear (identity) neurons, after every history of calls, repeated trainOnce calls on one example bring all the outputs as near as wanted to the expected ones, for every input, every expected output and every small enough learning rate.",
  "all numbers of inputs and of neurons, all draws, all histories of calls, all examples, all learning rates, all numbers of training steps",
  "convergence is about unboundedly many steps and all starting weights; a test sees some steps of one run",
  "src/neural_network/NeuralNetwork.cpp:trainOnce",
  "src/neural_network/optimizer/StochasticGradientDescent.cpp:updateWeights",
  "src/neural_network/layer/neuron/SimpleNeuron.cpp:output")
p("Accuracy of single-precision answers",
  "In single precision (binary32, every operation rounded to nearest, gradual underflow, overflow to infinity), the answer of a network of fully connected layers with identity or rectified linear activations is finite and differs from the answer that exact arithmetic would give with the same weights by at most a bound computed layer by layer from the weights and the exact values: (n+2)·2^-23 of the sum of the absolute values of the terms, plus (n+1)·2^-148, plus the errors of the inputs multiplied by the absolute values of the weights; provided that no layer has 2^23 inputs or more and that no sum of absolute values exceeds 2^125.",
  "every number and width of layers, every history of calls, all finite weights and inputs that cannot overflow",
  "rounding errors depend on every operand; a test compares a few answers with an arbitrary tolerance",
  "src/neural_network/layer/neuron/SimpleNeuron.cpp:output",
  "src/neural_network/NeuralNetwork.cpp:output",
  "src/neural_network/StraightforwardNeuralNetwork.cpp:computeOutput")
p("The accessors of the data speak about the same example",
  "getData(set, i), getOutputs(set, i) and getLabel(set, i) give the input, the expected output and the label of one same example, after every history of shuffles and unshuffles.",
  "all classification data of every nature, all histories of shuffle and unshuffle with all random draws, all positions",
  "a test reads a few positions of data that usually were not shuffled",
  "src/data/Data.cpp:getData, getOutputs, getLabel",
  "src/data/CompositeForClassification.cpp:getTrainingLabel, getTestingLabel",
  "src/data/ProblemComposite.cpp:getTrainingOutputs")
p("Small changes of the input change the answer little, and not the class when the margin is large",
  "In exact arithmetic, on two inputs that differ by at most ε in every component, computeOutput of a network without recurrent layers returns outputs that differ by at most L ε in every component, where L, the product over the layers of the bound of the slope of the activation times the greatest sum of absolute values of the input weights of a neuron (times the reverse value of dropout, times 1/2 for softmax; 1 for pooling), is computed from what the getters show. So the answers are continuous, and when the output of the predicted class exceeds all the others by more than 2 L ε, computeCluster returns the same class on every input within ε.",
  "every well-formed architecture of any depth without recurrent layers that ends with a layer of neurons, all activation functions and layer optimizers, every history of calls, every pair of inputs, every ε",
  "There are infinitely many perturbations of an input: a test can only try some of them, and cannot certify that none of them changes the class.",
  "src/neural_network/NeuralNetwork.cpp: NeuralNetwork::output",
  "include/snn/neural_network/layer/Layer.tpp: Layer::output",
  "src/neural_network/layer/neuron/SimpleNeuron.cpp: SimpleNeuron::output",
  "src/neural_network/layer/MaxPooling2D.cpp: MaxPooling2D::computeOutput",
  "src/neural_network/layer/Convolution2D.cpp: Convolution2D::computeOutput")
p("Asynchronous training is free of data races",
  "A program that uses a network from one thread — startTrainingAsync, stopTrainingAsync, waitFor, train, the destructor — has no data race: any two accesses to the same member by the client and by a training thread, one of them a write, are ordered by the start or the join of that thread.",
  "every client, every sequence of calls, every interleaving of the client and the training threads, every training",
  "A data race is a property of every schedule and of the happens-before order, not of the values a test observes; a test passes on the schedules it happens to get",
  "src/neural_network/StraightforwardNeuralNetwork.cpp:startTrainingAsync",
  "src/neural_network/StraightforwardNeuralNetwork.cpp:stopTrainingAsync",
  "src/neural_network/StraightforwardNeuralNetwork.cpp:waitFor",
  "include/snn/neural_network/StraightforwardNeuralNetwork.hpp:wantToStopTraining")
p("Two networks can be trained at the same time",
  "Two different networks used by two threads at the same time do not interfere: each one goes only through states it can reach alone, and there is no data race between them.",
  "every pair of networks and clients, every interleaving of the clients and of the training threads of both networks",
  "The interference depends on the schedule of the two threads; tests train one network at a time or observe only a few schedules",
  "include/snn/tools/Tools.hpp:rng",
  "src/data/CompositeForNonTemporalData.cpp:shuffle",
  "src/neural_network/optimizer/Dropout.cpp:applyBeforeBackpropagation",
  "src/neural_network/StraightforwardNeuralNetwork.cpp:trainSync")
p("A gated recurrent unit learns with all its gates",
  "When a network with gated recurrent layers is trained with stochastic gradient descent, each weight of an input in each of the three gates of a unit (reset, update, output) moves by learningRate * error * D (plus the momentum term), where D is the derivative of the answer of the unit with respect to this weight; in particular no gate keeps its initial weights for ever when its influence on the answer is not null.",
  "every unit reached from its constructor by any calls, every input, error and temporal reset, hidden or first layer; for the networks every architecture with a gated layer, every history of calls, every data set, batch size and number of epochs, exact arithmetic",
  "A test sees that the error decreases, which happens even if only one gate learns; that a gate never learns after any history, and that a gradient is wrong for every weight, are statements on all histories and real inputs",
  "src/neural_network/layer/neuron/GatedRecurrentUnit.cpp:GatedRecurrentUnit::train",
  "src/neural_network/layer/neuron/GatedRecurrentUnit.cpp:GatedRecurrentUnit::backOutput",
  "src/neural_network/layer/neuron/GatedRecurrentUnit.cpp:GatedRecurrentUnit::output",
  "src/neural_network/optimizer/StochasticGradientDescent.cpp:StochasticGradientDescent::updateWeights")
p("Dropout is right in expectation",
  "When the draws of the generator are independent and uniform in [0, 1), each neuron of a layer with a dropout of rate p is silenced by a pass of training that starts a new sequence with probability p, independently of the others; and what computeOutput answers is the mean of what the passes of training answer, for every network in which the layers after the first dropout are linear (whatever the layers before it, the number of dropouts and the history of the network).",
  "all architectures and depths with linear layers after the first layer with a dropout, all rates in [0, 1], all histories (calls, copies, files), all inputs, the whole law of the draws",
  "the property is about a mean over a continuum of draws; a test can only sample some of them and accept a statistical error",
  "src/neural_network/optimizer/Dropout.cpp:applyAfterOutputForTraining",
  "src/neural_network/optimizer/Dropout.cpp:applyAfterOutputForTesting",
  "src/neural_network/layer/Layer.tpp:outputForTraining")
p("Shuffling is fair",
  "With an ideal random generator, after any history of shuffles and unshuffles, one more shuffle() (what every epoch of training begins with) puts the training data in each possible order with the same probability: 1/n! for n non-temporal examples; for a time series every order of the windows that fit; for sequential data every order of the sequences. For sequential data the library never changes the order (refuted).",
  "every data set of distinct examples of any size, every history of shuffles and unshuffles, every possible order",
  "a test sees some orders; uniformity is a statement about all n! orders and all n! tuples of draws, and about every earlier history",
  "src/data/CompositeForNonTemporalData.cpp:shuffle",
  "src/data/CompositeForTimeSeries.cpp:shuffle",
  "src/data/CompositeForTemporalData.cpp:shuffle",
  "src/data/Data.cpp:Data::shuffle")
p("A network whose recurrent feedback is below 1 forgets its past",
  "In real arithmetic, for every well-formed architecture and after every history of calls: if every recurrent neuron has (slope bound of its activation) * |recurrent weight| <= q and every gated unit |v|/4 + |u| (1 + |w|/4) <= q (v, u, w the recurrent weights of its update, output and reset gates), then after two different sequences of computeOutput calls, whatever their lengths, the answers to one common sequence of inputs (any length, any temporal reset flags) differ after k answers by at most C rho^k, for every rho > q, with one constant C for all common sequences; so with q < 1 the past is forgotten. A new network whose recurrent layers are sigmoid Recurrence layers always meets the condition (q = 0.72), for all random draws.",
  "all well-formed architectures, histories, pairs of pasts, common sequences of inputs and reset flags, numbers of answers, tolerances, random draws",
  "The claim is a limit over unbounded sequences and quantifies over all pairs of pasts and all weights below the bound; tests can only compare a few sequences.",
  "src/neural_network/layer/neuron/RecurrentNeuron.cpp:RecurrentNeuron::output",
  "src/neural_network/layer/neuron/GatedRecurrentUnit.cpp:GatedRecurrentUnit::output",
  "src/neural_network/StraightforwardNeuralNetwork.cpp:StraightforwardNeuralNetwork::computeOutput")
p("A small enough training step does not make the error of its example greater",
  "For a network of fully connected layers and an example where the network is differentiable, when the learning rate is small enough, training once on the example does not increase the squared error of the network on this example; in the limit of small rates the error does not change.",
  "every well-formed architecture of fully connected layers (any number of layers and neurons, every activation but iSigmoid), every random initialization, every example without kink, every small enough learning rate, every momentum",
  "it is a statement about all learning rates below an unknown bound for every network and example: a test tries one rate",
  "src/neural_network/optimizer/StochasticGradientDescent.cpp:StochasticGradientDescent::updateWeights",
  "src/neural_network/NeuralNetwork.cpp:NeuralNetwork::trainOnce",
  "src/neural_network/layer/neuron/SimpleNeuron.cpp:SimpleNeuron::train")
p("Online training competes with every linear rule",
  "A single layer of linear neurons that answers every example of a sequence and then learns it makes, over the whole sequence, squared errors whose sum is at most a constant times the one of the best rule with as many coefficients chosen with hindsight, plus a constant that depends only on the first weights, the rule and the learning rate; in particular, when such a rule makes no error, the number of answers with a squared error of at least delta is bounded however long the sequence is.",
  "every layer size and input shape, every history of calls, every sequence of examples (even an adversarial one) of bounded inputs, every rule, every small enough learning rate",
  "the bound holds for every sequence of every length, including sequences chosen against the network, and for every competing rule",
  "src/neural_network/optimizer/StochasticGradientDescent.cpp:StochasticGradientDescent::updateWeight",
  "src/neural_network/NeuralNetwork.cpp:NeuralNetwork::trainOnce",
  "src/neural_network/layer/FullyConnected.cpp:FullyConnected::computeTrain")
p("Training learns every training set that a rule of the network explains",
  "If some choice of the weights and biases of a single layer of linear neurons gives the expected outputs of all the training examples, then training with batches of one example brings the outputs of the network on all the examples as near as wanted to the expected ones, geometrically in the number of epochs, whatever the shuffles, the criteria, the evaluations and the calls between the trainings.",
  "every layer size and input shape, every history of calls before, every training set explained by a rule, every shuffle of every epoch, every sequence of train/evaluate/computeOutput/save calls, every small enough learning rate, every number of epochs",
  "convergence is a statement about all numbers of epochs, all random orders and all training sets at once",
  "src/neural_network/StraightforwardNeuralNetwork.cpp:StraightforwardNeuralNetwork::trainSync",
  "src/neural_network/optimizer/StochasticGradientDescent.cpp:StochasticGradientDescent::updateWeight",
  "src/data/Data.cpp:Data::shuffle")
p("The counters of a training never overflow",
  "For every network, data, criterion and batch size, the `int` counters of `train` (current position, current epoch) never leave the range of `int`, so that the result is the one of counting with unbounded integers.",
  "every network, data of any size, batch size, number of epochs, arithmetic",
  "Overflow needs about 2^30 examples or 2^31 epochs; no test can run them, and a run that is short of the boundary says nothing about it.",
  "src/neural_network/StraightforwardNeuralNetwork.cpp: trainSync",
  "include/snn/neural_network/StraightforwardNeuralNetwork.hpp: index, epoch")
p("The bitmap files show the values",
  "saveData2DAsBitmap, saveFilterLayersAsBitmap and saveFeatureMapsAsBitmap write valid 24-bit BMP files: headers that agree with the file, one file for each layer with pictures, and every pixel has the colour of its value (grey level 255 v of an output or input between 0 and 1; a level that grows with the weight, 128 for weight 0); everything else is black. The calls are refused during a training.",
  "every idle network, every data, every number, size and arrangement of the pictures, every value and weight",
  "The file depends on all the sizes (padding of the rows, grid, wrap-around of the sizes in the headers) and values; a test compares a few files.",
  "src/neural_network/NeuralNetworkVisualization.cpp: saveAsBitmap",
  "src/neural_network/StraightforwardNeuralNetwork.cpp: saveFeatureMapsAsBitmap, saveData2DAsBitmap, saveFilterLayersAsBitmap",
  "src/external_library/bitmap/BitmapImage.hpp: save_image, set_pixel")
p("Training with bounded activations stays finite in single precision",
  "For a network of fully connected layers whose activations are logistic or hyperbolic tangents, on data, learning rate, momentum and sizes in declared ranges, no number of training steps and no sequence of calls takes a weight to infinity or NaN: every weight stays a finite float below a bound computed from the ranges alone (and not from the number of steps), computeOutput on an input in the ranges returns finite values between -1 and 1, and when the last layer is logistic isNan() never becomes true.",
  "every depth and width, every momentum up to 1, every data set in the ranges, every batch size up to 2^24, every number of epochs and every sequence of calls, with binary32 rounding of every operation",
  "a finite number of training steps cannot show that the next million of them does not overflow: the bound rests on the absorption of small increments by the rounding, for every reachable weight",
  "src/neural_network/optimizer/StochasticGradientDescent.cpp update",
  "src/neural_network/layer/neuron/SimpleNeuron.cpp output/backOutput/train",
  "src/neural_network/NeuralNetwork.cpp trainOnce/isNan")
p("The calls that are not refused are safe while a network trains asynchronously",
  "After startTrainingAsync, any call on the network that does not throw (computeOutput, computeCluster, trainOnce, the copy constructor, operator==, summary, saveAs, the bitmap functions, the getters) can be made by the client thread without a data race with the training thread; in particular saveAs and the bitmap functions, which test isIdle, are either refused or safe.",
  "all networks, data sets, clients, sequences of calls and interleavings of the client with its training threads",
  "a data race is a property of all the interleavings and of the order of memory accesses, not of the values that one run of a test sees",
  "src/neural_network/StraightforwardNeuralNetwork.cpp:StraightforwardNeuralNetwork::saveAs",
  "src/neural_network/StraightforwardNeuralNetwork.cpp:StraightforwardNeuralNetwork::startTrainingAsync",
  "include/snn/neural_network/StraightforwardNeuralNetwork.hpp:StraightforwardNeuralNetwork")
p("Before the first evaluation nothing is measured",
  "On a network that was just made, whatever calls are made other than an evaluation or a training: every result getter returns -1 and no result is flagged as better than before, isTraining() is false, the epoch, the index and the length of an epoch are 0, and getNumberOfTraining() is exactly the number of trainOnce calls; a new network has no NaN flag, does not save itself and has the default file name.",
  "every architecture and optimizer, every sequence of calls with every argument",
  "the sequences of calls and their arguments are unbounded",
  "src/neural_network/StraightforwardNeuralNetwork.cpp:StraightforwardNeuralNetwork",
  "include/snn/neural_network/StatisticAnalysis.hpp:StatisticAnalysis",
  "src/neural_network/NeuralNetwork.cpp:trainOnce")
p("A network without hidden nonlinearity separates only what a plane separates",
  "A network whose hidden layers are all fully connected with the activation identity (any number, any sizes, any layer optimizers but softmax) answers, after every history of calls, copies, saves and loads, by the activation of affine forms of its inputs. So if an evaluation reports the accuracy 1, then for every label of a multiple classification a plane separates the testing examples that have the label from the others (increasing activation), and for every two classes of a classification a plane separates their testing examples (strictly increasing activation). In particular the accuracy on the four examples of the exclusive or is at most 3/4, whatever the training.",
  "all architectures of this form, initial weights, optimizers, histories of calls and testing sets, in exact arithmetic",
  "The claim is about every training: a test that fails to learn the exclusive or for one seed and one number of epochs says nothing about the next one",
  "src/neural_network/NeuralNetwork.cpp: output, evaluate",
  "src/neural_network/layer/FullyConnected.cpp: computeOutput",
  "src/neural_network/StraightforwardNeuralNetwork.cpp: computeOutput, computeCluster, evaluate")
p("A silent ReLU neuron of the first hidden layer is dead",
  "Without momentum, a ReLU neuron of the first hidden layer whose weighted sum is not positive on any training input is never changed by training: whatever the calls that follow (training in any batch size and order, evaluation, inference, saving), its incoming weights stay what they are and it keeps answering 0 to these inputs.",
  "every network whose first hidden layer is a fully connected ReLU layer, every optimizer without momentum, every history, every later list of calls whose training inputs keep the neuron silent, every neuron of the layer",
  "a test trains some networks for some epochs; the claim is about all later trainings, batch sizes, shuffles and data sets",
  "include/snn/neural_network/layer/neuron/activation_function/ReLU.hpp: derivative",
  "src/neural_network/optimizer/StochasticGradientDescent.cpp: updateWeights",
  "src/neural_network/layer/neuron/SimpleNeuron.cpp: output, train")
p("A time limit is respected",
  "When the criterion given to train contains a duration limit (N_ms, N_s, N_min, alone or in an || expression), the training makes no training step after a check of the clock that shows that the limit has passed, returns after at most one more check, does not return before the limit when the duration is the only criterion (unless a NaN stops it), and always returns.",
  "every network, data, batch size, evaluation frequency, history of calls and every clock (any sequence of times at the checks)",
  "the behaviour depends on the times at which the clock is read: a test sees one schedule, and cannot wait for days",
  "src/neural_network/Wait.cpp: Wait::isOver, operator\"\"_ms",
  "src/neural_network/StraightforwardNeuralNetwork.cpp: trainSync, continueTraining")
p("You get the network that reached the requested accuracy",
  "Train a feedforward network with a criterion that contains an accuracy (a_acc, alone or in an || expression) and with evaluations. When train returns and getGlobalClusteringRate() is at least a, the network object itself is right on exactly that share of the testing examples: no training step was made after the evaluation that reached the accuracy. The same holds of getGlobalClusteringRateMax() when it first reaches a during that call.",
  "every feedforward architecture, history of calls, non temporal data, batch size, evaluation frequency, clock, draws",
  "it needs the order of evaluations and updates in every training, whatever the moment at which the accuracy is reached",
  "src/neural_network/StraightforwardNeuralNetwork.cpp: trainSync, continueTraining, evaluate",
  "src/neural_network/Wait.cpp: Wait::isOver")
p("The example programs end, and success means learned",
  "Each example program of the repository and the program of the README ends without exception, fault or endless loop whatever the random numbers and the clock; when an example of the three feedforward ones returns EXIT_SUCCESS its network answers right on every example of its data; the accuracy that the README program retrieves is the real share of right answers when it is 90% or more.",
  "all random draws, all clocks that reach the time limit, all data of the README program",
  "a run of an example shows one sequence of random numbers and one clock",
  "examples/ClassificationExample.cpp: classificationExample",
  "examples/MultipleClassificationExample.cpp: multipleClassificationExample",
  "examples/RegressionExample.cpp: regressionExample",
  "examples/RecurrenceExample.cpp: recurrenceExample",
  "README.md: Use")
p("The errors sent to the previous layer are the gradient",
  "When a recurrent neuron or a gated recurrent unit answered an input and then receives the error of its answer during back-propagation, the error it sends to the previous layer for each of its inputs is the received error times the derivative of its answer with respect to that input, so that the layers in front of it learn by gradient descent.",
  "every neuron or unit, every sequence of calls it received before, every input of the right size, every error, every input position",
  "A numerical check of a gradient covers one set of weights and one input up to a tolerance; the claim is about every state a unit can reach and every input.",
  "src/neural_network/layer/neuron/RecurrentNeuron.cpp: RecurrentNeuron::backOutput",
  "src/neural_network/layer/neuron/GatedRecurrentUnit.cpp: GatedRecurrentUnit::backOutput")
p("A data object can be shared by several networks, one after the other",
  "Several networks may be evaluated and trained on one Data object, one call after the other: no evaluation and no training depends on what other networks did with the object before; none of them changes its examples, its testing set or its settings.",
  "every Data object of every nature and problem, every sequence of evaluations and trainings by any networks in any state, every following evaluation or training",
  "A test compares two runs on one data set; whether a training leaves a trace in the data depends on the nature of the data, the batch buffers, the order and the offset left by all previous trainings.",
  "include/snn/data/Data.hpp: class Data",
  "src/data/Data.cpp: Data::shuffle, Data::unshuffle, Data::getTrainingData",
  "src/neural_network/StraightforwardNeuralNetwork.cpp: StraightforwardNeuralNetwork::trainSync")
p("What raising the precision or the separator does to the reported results",
  "In exact arithmetic, evaluate one network, in any state and of any architecture, on one data set of any temporal kind with two thresholds (setPrecision / setSeparator), the second not smaller than the first: the two evaluations both return or fail in the same way and leave the same layers. For a regression, the accuracy (getGlobalClusteringRate) with the larger precision is not smaller and the mean absolute and root mean squared errors are the same. For a classification, the accuracy and both errors are the same and the weighted accuracy (getWeightedClusteringRate) with the larger separator is not larger. For a multiple classification in which no expected value lies between the separators, the errors are the same and the weighted accuracy is not larger, while the accuracy can go either way.",
  "all networks in all states, data sets, environments, pairs of ordered thresholds",
  "The results are compared for all networks, data and thresholds; tests evaluate a few networks at one threshold",
  "include/snn/data/Data.hpp setPrecision setSeparator",
  "src/data/Data.cpp setPrecision setSeparator",
  "src/neural_network/StatisticAnalysis.cpp evaluateOnceForRegression evaluateOnceForMultipleClassification evaluateOnceForClassification computeWeightedClusteringRate",
  "src/neural_network/StraightforwardNeuralNetwork.cpp evaluate evaluateOnce")
p("After normalize the units of the inputs do not matter",
  "In exact arithmetic: give a data object (any constructor, any problem and temporal kind) the same examples in other units, each input component x replaced by a*x+b with a positive a and a b of that component, in the training and the testing inputs alike. The constructor then accepts or refuses in the same way, and normalize(min, max) turns both objects into exactly the same object when every component takes at least two different values in the training inputs; every training, evaluation and prediction made with it afterwards is therefore the same.",
  "all data sets, all units (positive factors and shifts per component), all bounds min and max",
  "It relates two runs for all data and all units; a test normalizes one data set",
  "include/snn/data/Data.hpp normalize",
  "src/data/Data.cpp normalize initialize flatten")
p("The order of the features does not matter",
  "In exact arithmetic: take a network whose first layer is fully connected, recurrent or gated, and the same network with the input weights of its first layer put in another order p. Give the first any history of trainings, evaluations and predictions, and the second the same calls with the features of every input of the data put in the order p. Then both histories fail in the same way or both succeed; in the second case all evaluations report the same statistics, the two networks have the same scores, flags and counters, they answer the same to any input (in its own order), and the learned weights of the second are those of the first in the order p. With 32-bit floats the claim is false, because sums are rounded in the order of the features.",
  "all architectures with such a first layer (any layers and layer optimizers after it), all permutations of the features, all histories of calls on rectangular data, all environments, initial draws",
  "It relates two whole histories for all networks, data and permutations; a test trains one network on one data set",
  "src/neural_network/layer/neuron/Neuron.tpp",
  "src/neural_network/layer/neuron/SimpleNeuron.cpp output back train",
  "src/neural_network/layer/neuron/RecurrentNeuron.cpp output back updateWeights",
  "src/neural_network/layer/neuron/GatedRecurrentUnit.cpp output train",
  "src/neural_network/StraightforwardNeuralNetwork.cpp train evaluate computeOutput")
p("The order of the neurons of a hidden layer does not matter",
  "In exact arithmetic: let a layer of m fully connected, recurrent or gated neurons (with or without L1, L2 and error multiplier) be followed by another such layer, anywhere in a well-formed architecture. Take the network, and the same network with the m neurons of that layer in another order p and the input weights of the next layer in the same order. After the same history of trainings, evaluations and predictions either both histories failed in the same way, or: all evaluations reported the same statistics, both networks have the same scores, flags and counters, they give the same answer to every input, and the learned weights of the second are those of the first in the order p.",
  "all architectures with two such consecutive layers at any depth, all permutations of the hidden neurons, all histories of calls on rectangular data, all environments and draws",
  "It relates two whole histories for all networks, data and permutations; a test trains one network on one data set",
  "src/neural_network/layer/SimpleLayer.tpp",
  "src/neural_network/layer/Layer.tpp getAverageOfAbsNeuronWeights getAverageOfSquareNeuronWeights",
  "src/neural_network/layer/neuron/SimpleNeuron.cpp backOutput",
  "src/neural_network/layer/neuron/RecurrentNeuron.cpp backOutput",
  "src/neural_network/layer/neuron/GatedRecurrentUnit.cpp backOutput",
  "src/neural_network/NeuralNetwork.cpp backpropagationAlgorithm")
p("The order of the outputs does not matter",
  "Reorder the expected outputs of every example of a regression or of a multiple classification, and the neurons of the last layer in the same way: after any history of trainings, evaluations and predictions the evaluations report the same accuracy, errors and flags, and the answers and the learned weights are the same in that order. (In exact arithmetic. For the predicted class the order matters when outputs are equal: the first is taken.)",
  "All well formed architectures that end with a fully connected, recurrent or gated layer without dropout and softmax, all orders of its neurons, all initial draws, all data for regression or multiple classification, all histories of calls.",
  "A test compares two orders on one network and one data set; the property ranges over all the orders, histories and architectures.",
  "include/snn/layer/SimpleLayer.tpp: computeOutput, computeBackOutput, computeTrain",
  "src/neural_network/StatisticAnalysis.cpp: evaluateOnceForRegression, evaluateOnceForMultipleClassification, stopTesting",
  "src/neural_network/NeuralNetwork.cpp: calculateError, trainOnce",
  "src/neural_network/StraightforwardNeuralNetwork.cpp: train, evaluate, computeCluster")
p("A testing set can be evaluated in parts",
  "For a network without recurrent layers made from any accepted architecture and used in any way: the accuracy and the mean absolute error that evaluate reports on a testing set are the means of those reported on its parts (in any split, any number of parts, any order of the examples), weighted by their numbers of examples; and repeating every testing example the same number of times changes neither the accuracy, nor the weighted rate, the F1 score and the mean absolute error.",
  "every accepted feedforward architecture, every history of calls, every testing set, every split into parts and every number of repetitions (exact arithmetic)",
  "a test evaluates one split of one testing set; a position skipped or counted twice only shows at some sizes and splits",
  "src/neural_network/StraightforwardNeuralNetwork.cpp evaluate",
  "src/neural_network/StatisticAnalysis.cpp startTesting",
  "src/neural_network/StatisticAnalysis.cpp stopTesting")
p("A feature that is always zero in the training data is never learned",
  "If a feature is 0 in every training input a network is ever trained on, the weight of this feature in every neuron of the first hidden layer (fully connected, recurrent or gated: in each gate) is, after any history of calls, exactly the random one the constructor drew: neither the training, nor the momentum, nor dropout, L1/L2 regularization or error multiplier moves it, so inputs with this feature still disturb the answers at random.",
  "every network whose first hidden layer is fully connected, recurrent or gated (any activation, layer optimizers, learning rate and momentum, any other layers), every neuron, every feature, every history of calls (trainings in batches, evaluations, outputs, saves), in exact arithmetic",
  "It ranges over all networks, histories and training sets; a test sees one training",
  "src/neural_network/optimizer/StochasticGradientDescent.cpp: updateWeights",
  "src/neural_network/layer/neuron/SimpleNeuron.cpp: train",
  "src/neural_network/layer/neuron/RecurrentNeuron.cpp: train",
  "src/data/Data.cpp: getTrainingData, getBatchedData")
p("An error multiplier on the last layer is a factor of the learning rate",
  "Take layers without L1 or L2, the last of which is not a max pooling. In exact arithmetic, the network of these layers with the learning rate l*c, and the network with the learning rate l and one more optimizer ErrorMultiplier(c) at the head of those of the last layer, made with the same random draws and momentum, behave alike: after any history of trainings, evaluations, answers and saves they report the same statistics, use the same random draws, have the same scores and flags, give the same answers and have the same weights, or they fail in the same way.",
  "all layers of all kinds and sizes with any optimizers except L1 and L2, all l, c, momenta, random draws, shapes, histories of calls on rectangular data",
  "tests compare one multiplier on one network; the claim is about every architecture and every history, including trainings with momentum, dropout, softmax and recurrent layers",
  "src/neural_network/optimizer/ErrorMultiplier.cpp: ErrorMultiplier::applyBeforeBackpropagation",
  "src/neural_network/optimizer/StochasticGradientDescent.cpp: StochasticGradientDescent::updateWeights",
  "include/snn/neural_network/layer/SimpleLayer.tpp",
  "src/neural_network/layer/FilterLayer.cpp")
p("An error multiplier of 0 freezes a layer and the ones before it",
  "If a layer of a network has an ErrorMultiplier optimizer of factor 0, and neither this layer nor the ones before it has an L1 or L2 regularization, then no training ever changes the weights of this layer or of the layers before it, while the layers after it may learn.",
  "every architecture, every position of the layer, every initial weights, learning rate and momentum, every history of trainings, evaluations and answers on any data",
  "Freezing has to hold after every history of trainings on every data set, with the memory of every momentum; a test sees one history of one network.",
  "src/neural_network/optimizer/ErrorMultiplier.cpp: ErrorMultiplier::beforeBackpropagation",
  "src/neural_network/optimizer/StochasticGradientDescent.cpp: StochasticGradientDescent::updateWeights",
  "src/neural_network/StraightforwardNeuralNetwork.cpp: StraightforwardNeuralNetwork::train")
with open("/verif/properties.jsonl","w") as f:
    for q in P: f.write(json.dumps(q)+"\n")
print(len(P))
