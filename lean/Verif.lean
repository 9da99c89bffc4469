import Verif.Model.Ascii
import Verif.Model.Basic
import Verif.Model.Codabar
import Verif.Model.Code11
import Verif.Model.Code128
import Verif.Model.Code39
import Verif.Model.Code93
import Verif.Model.Debug
import Verif.Model.DebugGenerators
import Verif.Model.Ean13
import Verif.Model.Ean8
import Verif.Model.EanSupp
import Verif.Model.Helpers
import Verif.Model.Image
import Verif.Model.Json
import Verif.Model.Svg
import Verif.Model.TF
import Verif.Model.Upca
import Verif.Spec.AddOn
import Verif.Spec.AsciiArt
import Verif.Spec.Beam
import Verif.Spec.Blur
import Verif.Spec.Bookland
import Verif.Spec.Codabar
import Verif.Spec.CodabarFrame
import Verif.Spec.CodabarOwn
import Verif.Spec.Code11
import Verif.Spec.Code128
import Verif.Spec.Code128Extended
import Verif.Spec.Code128Message
import Verif.Spec.Code128Shortest
import Verif.Spec.Code128Write
import Verif.Spec.Code39
import Verif.Spec.Code93
import Verif.Spec.Correct
import Verif.Spec.Correction
import Verif.Spec.Counting
import Verif.Spec.Coverage
import Verif.Spec.Cyclic
import Verif.Spec.Damage
import Verif.Spec.DebugSets
import Verif.Spec.DebugSettings
import Verif.Spec.DebugText
import Verif.Spec.Discrete
import Verif.Spec.Ean
import Verif.Spec.Elements
import Verif.Spec.EveryReading
import Verif.Spec.Expected
import Verif.Spec.FullAscii
import Verif.Spec.Gs1
import Verif.Spec.Gs1Fields
import Verif.Spec.HandScan
import Verif.Spec.Ink
import Verif.Spec.InkSpread
import Verif.Spec.Json
import Verif.Spec.Layout
import Verif.Spec.LikeEdges
import Verif.Spec.Lost
import Verif.Spec.Measure
import Verif.Spec.Misjudged
import Verif.Spec.NarrowWide
import Verif.Spec.Negative
import Verif.Spec.Noise
import Verif.Spec.Parity
import Verif.Spec.Part
import Verif.Spec.Picture
import Verif.Spec.Pieces
import Verif.Spec.Resize
import Verif.Spec.SameError
import Verif.Spec.Scratch
import Verif.Spec.Serial
import Verif.Spec.Shape
import Verif.Spec.Skipped
import Verif.Spec.Slipped
import Verif.Spec.Speck
import Verif.Spec.Speed
import Verif.Spec.Splice
import Verif.Spec.Svg
import Verif.Spec.Tables
import Verif.Spec.Translucent
import Verif.Spec.Turned
import Verif.Spec.TwoOfFive
import Verif.Spec.TwoWrong
import Verif.Spec.Untidy
import Verif.Spec.Weights
import Verif.Lemmas.Basic
import Verif.Lemmas.CheckedNew
import Verif.Lemmas.Codabar
import Verif.Lemmas.Code11
import Verif.Lemmas.Code128
import Verif.Lemmas.Code39
import Verif.Lemmas.Code93
import Verif.Lemmas.Counting
import Verif.Lemmas.Cyclic
import Verif.Lemmas.Ean
import Verif.Lemmas.EanSupp
import Verif.Lemmas.Elements
import Verif.Lemmas.Gs1
import Verif.Lemmas.Mod10
import Verif.Lemmas.Numbers
import Verif.Lemmas.OneOff
import Verif.Lemmas.Part
import Verif.Lemmas.Prefix
import Verif.Lemmas.ScanInj
import Verif.Lemmas.Scratch
import Verif.Lemmas.Separable
import Verif.Lemmas.Svg
import Verif.Lemmas.Symbols
import Verif.Lemmas.TF
import Verif.Props.AddOnErrors
import Verif.Props.Ascii
import Verif.Props.Beam
import Verif.Props.Blur
import Verif.Props.Bookland
import Verif.Props.Builds
import Verif.Props.Camera
import Verif.Props.Checks
import Verif.Props.Codabar
import Verif.Props.CodabarFrame
import Verif.Props.Code11
import Verif.Props.Code128
import Verif.Props.Code128Ascii
import Verif.Props.Code128Latin
import Verif.Props.Code128Shortest
import Verif.Props.Code39
import Verif.Props.Code93
import Verif.Props.Compose
import Verif.Props.Correct
import Verif.Props.Correction
import Verif.Props.Counting
import Verif.Props.Coverage
import Verif.Props.Cross
import Verif.Props.Cut
import Verif.Props.Damage
import Verif.Props.DebugSets
import Verif.Props.DebugSettings
import Verif.Props.DebugText
import Verif.Props.Defaults
import Verif.Props.Discrete
import Verif.Props.Distance
import Verif.Props.Distinct
import Verif.Props.DoubleErrors
import Verif.Props.Ean
import Verif.Props.EanSupp
import Verif.Props.Errors
import Verif.Props.EveryReading
import Verif.Props.Exact
import Verif.Props.ExactCodabar
import Verif.Props.ExactCode128
import Verif.Props.ExactTF
import Verif.Props.Exchange
import Verif.Props.Expected
import Verif.Props.FewModules
import Verif.Props.FullAscii
import Verif.Props.Gs1Fields
import Verif.Props.Gtin
import Verif.Props.HandScan
import Verif.Props.Illegible
import Verif.Props.Image
import Verif.Props.Ink
import Verif.Props.InkSpread
import Verif.Props.Json
import Verif.Props.Largest
import Verif.Props.Layout
import Verif.Props.LikeEdges
import Verif.Props.LostBars
import Verif.Props.ManyErrors
import Verif.Props.Measure
import Verif.Props.Migrate
import Verif.Props.NamedColors
import Verif.Props.Narrowest
import Verif.Props.NearErrors
import Verif.Props.Negative
import Verif.Props.Noise
import Verif.Props.OddBytes
import Verif.Props.OneElement
import Verif.Props.OneModule
import Verif.Props.OneModuleTF
import Verif.Props.Parity
import Verif.Props.Part
import Verif.Props.Pictures
import Verif.Props.Pieces
import Verif.Props.Resize
import Verif.Props.Reversal
import Verif.Props.SameError
import Verif.Props.Scratch
import Verif.Props.Serial
import Verif.Props.Shape
import Verif.Props.Size
import Verif.Props.Skipped
import Verif.Props.Slipped
import Verif.Props.Speed
import Verif.Props.Splice
import Verif.Props.Supplemental
import Verif.Props.Svg
import Verif.Props.SvgExact
import Verif.Props.TF
import Verif.Props.Tables
import Verif.Props.Target
import Verif.Props.Tells
import Verif.Props.Translucent
import Verif.Props.Turned
import Verif.Props.TwoDigits
import Verif.Props.TwoSymbols
import Verif.Props.TwoWrong
import Verif.Props.Typing
import Verif.Props.Untidy
import Verif.Props.Variants
import Verif.Conformance
