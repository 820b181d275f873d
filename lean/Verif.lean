import Verif.Model.Basic
import Verif.Model.PixelBuffer
import Verif.Spec
import Verif.Lemmas.Buffer
import Verif.Lemmas.Traverse
import Verif.Props.Buffer
import Verif.Props.Reach
import Verif.Props.Kernel
import Verif.Model.Geometry
import Verif.Lemmas.Geometry
import Verif.Props.Geometry
import Verif.Float.Round
import Verif.Float.FP
import Verif.Float.Real
import Verif.Float.Bits
import Verif.Model.Scalar
import Verif.Model.Color
import Verif.Lemmas.FP
import Verif.Lemmas.Color
import Verif.Lemmas.Exact
import Verif.Lemmas.Hsl
import Verif.Props.ColorRange
import Verif.Props.Hsl
import Verif.Lemmas.F32
import Verif.Props.ColorEq
import Verif.Props.ColorOps
import Verif.Props.Srgb
import Verif.Model.Kernel
import Verif.SpecOps
import Verif.Lemmas.Kernel
import Verif.Lemmas.Gaussian
import Verif.Props.Convolution
import Verif.Model.Filters
import Verif.SpecSample
import Verif.Lemmas.Sample
import Verif.Lemmas.Coords
import Verif.Props.Sample
import Verif.Model.Blend
import Verif.Model.Ops
import Verif.Model.Histogram
import Verif.Model.Tone
import Verif.Model.Drawing
import Verif.Model.Bytes
import Verif.Model.Codecs
import Verif.SpecPixel
import Verif.Lemmas.PixelOps
import Verif.Props.Blend
import Verif.Props.Noise
import Verif.SpecLab
import Verif.Props.Lab
import Verif.Props.Smooth
import Verif.SpecHist
import Verif.Lemmas.Histogram
import Verif.Props.Histogram
import Verif.SpecTone
import Verif.Props.Tone
import Verif.SpecDrawing
import Verif.Props.Drawing
import Verif.Model.Files
import Verif.SpecCodecs
import Verif.Lemmas.Quant
import Verif.Lemmas.Bytes
import Verif.Props.Quant
import Verif.Props.Codecs
import Verif.SpecFiles
import Verif.Props.Files
import Verif.Props.SaveOpen
import Verif.Model.Options
import Verif.SpecOptions
import Verif.Props.Options
import Verif.Model.Image
import Verif.Model.Commands
import Verif.Model.Cli
import Verif.SpecCommands
import Verif.Props.Commands
import Verif.SpecCli
import Verif.Props.Cli
import Verif.Lemmas.Sized
import Verif.SpecImage
import Verif.Props.Image
import Verif.Model.Python
import Verif.SpecPython
import Verif.Props.Python
import Verif.Props.PythonMethods
import Verif.SpecTonal
import Verif.Props.Tonal
import Verif.Model.Channels
import Verif.Model.Iter
import Verif.SpecChannels
import Verif.Props.Channels
import Verif.Model.PythonColor
import Verif.Props.PythonColor
import Verif.SpecAccuracy
import Verif.Lemmas.Near
import Verif.Props.Accuracy
import Verif.Props.AccuracyPow
import Verif.SpecMoves
import Verif.Lemmas.Moves
import Verif.Props.Symmetry
import Verif.Lemmas.Tensor
import Verif.Props.Resample
import Verif.Props.Lanczos
import Verif.SpecLocal
import Verif.Lemmas.Local
import Verif.Props.Local
import Verif.SpecIeee
import Verif.Lemmas.Ieee
import Verif.Props.Ieee
import Verif.SpecOrder
import Verif.Lemmas.Order
import Verif.Props.Order
import Verif.Lemmas.HslFloat
import Verif.Lemmas.HslTrip
import Verif.Props.HslFloat
import Verif.Lemmas.HsvTrip
import Verif.Props.HsvFloat
import Verif.SpecEndToEnd
import Verif.Props.EndToEnd
import Verif.SpecBlur
import Verif.Lemmas.SumFloat
import Verif.Lemmas.BellFloat
import Verif.Props.BlurFloat
import Verif.Props.Laws
import Verif.SpecRecolor
import Verif.Props.Recolor
import Verif.Props.Grey
import Verif.Props.Negative
import Verif.SpecText
import Verif.Model.Text
import Verif.Lemmas.TextRead
import Verif.Lemmas.TextPrint
import Verif.Props.Text
import Verif.SpecHsl
import Verif.Lemmas.HslBack
import Verif.Props.HslLaws
import Verif.Lemmas.Nearest
import Verif.Props.Enlarge
import Verif.Lemmas.PosFloat
import Verif.Lemmas.Interp
import Verif.Props.ResizeFloat
import Verif.SpecRotate
import Verif.Props.RotateFloat
import Verif.SpecPanic
import Verif.Props.NoPanic
import Verif.SpecOrderPictures
import Verif.Props.OrderPictures
import Verif.SpecStoredBytes
import Verif.Props.StoredBytes
import Verif.SpecStreams
import Verif.Props.Streams
import Verif.SpecRest
import Verif.Props.Rest
import Verif.SpecLabFloat
import Verif.Props.LabFloat
import Verif.Props.LchFloat
import Verif.Props.MapChannels
import Verif.Props.LibErrors
import Verif.SpecYuvFloat
import Verif.Props.YuvFloat
import Verif.Props.AnySpace
import Verif.Lemmas.Ensures
import Verif.SpecRange
import Verif.Props.Range
import Verif.Props.RangeRun
import Verif.Model.Objects
import Verif.Lemmas.Objects
import Verif.Lemmas.ObjectsInv
import Verif.Lemmas.ObjectsStep
import Verif.SpecObjects
import Verif.Lemmas.ObjectsHistory
import Verif.Lemmas.ObjectsPlan
import Verif.Props.Objects
import Verif.Lemmas.ObjectsShape
import Verif.SpecObjectsShape
import Verif.Props.ObjectsShape
import Verif.SpecMethodPanics
import Verif.Props.MethodPanics
import Verif.SpecNumbers
import Verif.Lemmas.Numbers
import Verif.Props.Numbers
import Verif.Props.NumbersRun
import Verif.Lemmas.NumbersOps
import Verif.SpecTame
import Verif.Props.NumbersOps
import Verif.Props.NumbersBlur
import Verif.Props.Generations
import Verif.SpecTune
import Verif.Lemmas.NumbersTune
import Verif.Props.NumbersTune
import Verif.Lemmas.Light
import Verif.Props.Temperature
import Verif.Props.Chain
import Verif.SpecLanczos
import Verif.Lemmas.LanczosFloat
import Verif.Props.LanczosFloat
import Verif.SpecConvert
import Verif.Props.Convert
import Verif.SpecBlendFloat
import Verif.Props.BlendFloat
import Verif.SpecFileKinds
import Verif.Props.FileKinds
import Verif.SpecAnyKind
import Verif.Props.AnyKind
import Verif.Lemmas.LevelFloat
import Verif.SpecFade
import Verif.Lemmas.SaturationFloat
import Verif.Props.Fade
import Verif.SpecHue
import Verif.Props.Hue
import Verif.Lemmas.HueMove
import Verif.Lemmas.EdgesAlike
import Verif.SpecNoiseFloat
import Verif.Props.NoiseFloat
import Verif.SpecSameLine
import Verif.Props.SameLine
import Verif.SpecLight
import Verif.Props.Light
import Verif.Props.LightFloat
import Verif.SpecLayers
import Verif.Props.Layers
import Verif.Props.LayersFloat
import Verif.Props.StretchAgain
import Verif.SpecStages
import Verif.Props.Stages
import Verif.SpecBlendLaws
import Verif.Props.BlendLaws
import Verif.Props.BlendLawsFloat
import Verif.Props.BlendMoves
import Verif.SpecPalette
import Verif.Props.Palette
import Verif.Props.Interlace
import Verif.Props.CropMoves
import Verif.Props.GreyAgain
import Verif.Props.InvertAgain
import Verif.Props.NeutralFloat
import Verif.Props.CompositeFloat
import Verif.Props.BlendEnds
import Verif.Props.InvertCommands
