import Verif.Py
import Verif.Num
import Verif.Ext
import Verif.Np
import Verif.Pd
import Verif.Align
import Verif.BareString
import Verif.Base
import Verif.Binary
import Verif.Center
import Verif.Circ
import Verif.CircWarn
import Verif.Cluster
import Verif.Data
import Verif.Equality
import Verif.Header
import Verif.HeaderOutput
import Verif.Heap
import Verif.Histogram
import Verif.Io
import Verif.Lemmas.Align
import Verif.Lemmas.AlignedError
import Verif.Lemmas.Base
import Verif.Lemmas.Binary
import Verif.Lemmas.BinaryAdd
import Verif.Lemmas.BinaryClose
import Verif.Lemmas.BinaryEdges
import Verif.Lemmas.BinaryErr
import Verif.Lemmas.BinaryFuzzy
import Verif.Lemmas.BinarySqrt
import Verif.Lemmas.Center
import Verif.Lemmas.Circ
import Verif.Lemmas.CircExact
import Verif.Lemmas.CircWarn
import Verif.Lemmas.CutRadius
import Verif.Lemmas.Data
import Verif.Lemmas.Dict
import Verif.Lemmas.ExactProfile
import Verif.Lemmas.Ext
import Verif.Lemmas.FltAnti
import Verif.Lemmas.FltOrder
import Verif.Lemmas.FltScale
import Verif.Lemmas.Frame
import Verif.Lemmas.Fused
import Verif.Lemmas.FusedScale
import Verif.Lemmas.Heap
import Verif.Lemmas.Histogram
import Verif.Lemmas.Io
import Verif.Lemmas.IoTables
import Verif.Lemmas.Neg
import Verif.Lemmas.Np
import Verif.Lemmas.Order
import Verif.Lemmas.PolygonClose
import Verif.Lemmas.PotExact
import Verif.Lemmas.Potential
import Verif.Lemmas.Profile
import Verif.Lemmas.ProfileGap
import Verif.Lemmas.ProfileTransfer
import Verif.Lemmas.Quantity
import Verif.Lemmas.SumScale
import Verif.Lemmas.Summation
import Verif.Lemmas.SummationOrder
import Verif.Lemmas.Vec
import Verif.Models
import Verif.Plot
import Verif.Potential
import Verif.Props.Accessors
import Verif.Props.Align
import Verif.Props.NearlyAligned
import Verif.Props.AlignedExample
import Verif.Props.AlignedLabels
import Verif.Props.AutoChoice
import Verif.Props.BareString
import Verif.Props.Center
import Verif.Props.Circ
import Verif.Props.CircExact
import Verif.Props.CircWarn
import Verif.Props.Cluster
import Verif.Props.ClusterExact
import Verif.Props.Configured
import Verif.Props.CutLabels
import Verif.Props.Data
import Verif.Props.Decompose
import Verif.Props.Double
import Verif.Props.DoubleAlign
import Verif.Props.DoubleAligned
import Verif.Props.DoubleBins
import Verif.Props.DoubleCenter
import Verif.Props.DoubleCentre
import Verif.Props.DoubleCluster
import Verif.Props.DoubleHistogram
import Verif.Props.DoubleInterp
import Verif.Props.DoubleKinematics
import Verif.Props.DoubleLibrary
import Verif.Props.DoubleSign
import Verif.Props.DoubleThreshold
import Verif.Props.DoubleTwice
import Verif.Props.DoubleUnits
import Verif.Props.DoubleUnitsAlign
import Verif.Props.DoubleUnitsPipeline
import Verif.Props.DoubleUnitsPotential
import Verif.Props.Equality
import Verif.Props.EqualityMore
import Verif.Props.ExactCirc
import Verif.Props.Frame
import Verif.Props.Header
import Verif.Props.HeaderOutput
import Verif.Props.Heap
import Verif.Props.Histogram
import Verif.Props.HistogramCount
import Verif.Props.HistogramDouble
import Verif.Props.HistogramEnergy
import Verif.Props.HistogramExact
import Verif.Props.HistogramGalaxy
import Verif.Props.HistogramMean
import Verif.Props.HistogramTransfer
import Verif.Props.Invariance
import Verif.Props.Io
import Verif.Props.IoReaders
import Verif.Props.Matrix
import Verif.Props.NearCirc
import Verif.Props.NearHistogram
import Verif.Props.Objects
import Verif.Props.Omp
import Verif.Props.Order
import Verif.Props.Pipeline
import Verif.Props.Plot
import Verif.Props.PlotCirc
import Verif.Props.PlotLabels
import Verif.Props.PlotMethods
import Verif.Props.Potential
import Verif.Props.PotentialAdd
import Verif.Props.PotentialBackends
import Verif.Props.PotentialEnergy
import Verif.Props.PotentialError
import Verif.Props.PotentialSingle
import Verif.Props.PotentialWide
import Verif.Props.Quantity
import Verif.Props.RawAligned
import Verif.Props.RawAlignedExample
import Verif.Props.RawHistogram
import Verif.Props.RawLabels
import Verif.Props.Relevance
import Verif.Props.Repr
import Verif.Props.Reversal
import Verif.Props.Session
import Verif.Props.Softening
import Verif.Props.StarsOnly
import Verif.Props.Threshold
import Verif.Props.TypeNames
import Verif.Props.Units
import Verif.Quantity
import Verif.Repr
import Verif.Single
import Verif.Softening
import Verif.Spec.Bodies
import Verif.Spec.Frame
import Verif.Spec.SameDot
import Verif.Spec.Summation
import Verif.Spec.Vec
import Verif.Threshold
import Verif.Upper
