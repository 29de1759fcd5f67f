import Verif.Proof.Pdus5
import Verif.Proof.Stream2
import Verif.Model.Factory
import Verif.Proof.Special
import Verif.Proof.LayoutSpecial
import Verif.Props.Streams
import Verif.Props.Codecs
import Verif.Props.Factory
import Verif.Props.Sending
import Verif.Props.Constructors
import Verif.Props.Header
import Verif.Props.Bitfields
import Verif.Props.Records
import Verif.Props.Transmitter
import Verif.Props.Data
import Verif.Props.Floats
import Verif.Props.DeadReckoning
import Verif.Props.Coordinates
import Verif.Props.Utm
import Verif.Props.UtmAccuracy
import Verif.Props.Geodetic
import Verif.Props.Robustness
import Verif.Props.Sizes
import Verif.Props.InPlace
import Verif.Props.Received
import Verif.Props.Examples
import Verif.Props.Rounding
import Verif.Props.DoubleRules
import Verif.Props.Extrapolation
import Verif.Props.RoundingBody
import Verif.Props.RoundingAttitude
import Verif.Props.Heap
import Verif.Props.HeapArgs
import Verif.Props.Coordinates64
import Verif.Props.Geodetic64
import Verif.Props.Attitude64
import Verif.Props.Local64
import Verif.Props.Trip64
import Verif.Props.Correct
import Verif.Props.Utm64
import Verif.Props.HeapFactory
import Verif.Props.HeapNumbers
import Verif.Props.Chart
import Verif.Props.Chart64
import Verif.Props.Demo
import Verif.Props.Source
import Verif.Props.SourceRadio
import Verif.Props.SourceInit
import Verif.Props.SourceFamily
import Verif.Props.SourceCounts
import Verif.Props.SourceDerived
import Verif.Props.SourceText
import Verif.Props.Calc
import Verif.Props.CalcAccuracy
import Verif.Props.CalcArrays
import Verif.Props.CalcWhole
import Verif.Props.Io
import Verif.Props.IoFactory
import Verif.Validation
import Verif.ArithValidation
