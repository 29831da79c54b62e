import Verif.Arith
import Verif.F32
import Verif.Lemmas.Average
import Verif.Lemmas.Between
import Verif.Lemmas.Bits
import Verif.Lemmas.Camera
import Verif.Lemmas.Ciff
import Verif.Lemmas.Codes
import Verif.Lemmas.CrwTable
import Verif.Lemmas.Cursor
import Verif.Lemmas.Curves
import Verif.Lemmas.DecBasics
import Verif.Lemmas.DecLjpeg
import Verif.Lemmas.DecMore
import Verif.Lemmas.DecNikon
import Verif.Lemmas.DecOrf
import Verif.Lemmas.DecRest
import Verif.Lemmas.DecSimple
import Verif.Lemmas.Demosaic
import Verif.Lemmas.Dispatch
import Verif.Lemmas.Ends
import Verif.Lemmas.EndsTac
import Verif.Lemmas.F32
import Verif.Lemmas.F32Ops
import Verif.Lemmas.F32Val
import Verif.Lemmas.FileExample
import Verif.Lemmas.FujiOpen
import Verif.Lemmas.Fx
import Verif.Lemmas.FxCheck
import Verif.Lemmas.FxMatrix
import Verif.Lemmas.FxOps
import Verif.Lemmas.HuffAny
import Verif.Lemmas.HuffBig
import Verif.Lemmas.HuffBuild
import Verif.Lemmas.HuffDecode
import Verif.Lemmas.HuffTables
import Verif.Lemmas.Huffman
import Verif.Lemmas.JpegPump
import Verif.Lemmas.Level
import Verif.Lemmas.Listed
import Verif.Lemmas.Ljpeg
import Verif.Lemmas.LjpegFile
import Verif.Lemmas.LjpegHeader
import Verif.Lemmas.Loops
import Verif.Lemmas.LoopsMore
import Verif.Lemmas.Matrix
import Verif.Lemmas.Mrw
import Verif.Lemmas.NefCurve
import Verif.Lemmas.OpBuffer
import Verif.Lemmas.OpenFile
import Verif.Lemmas.Packed
import Verif.Lemmas.Pairs
import Verif.Lemmas.PefTable
import Verif.Lemmas.Pipeline
import Verif.Lemmas.Positions
import Verif.Lemmas.Post
import Verif.Lemmas.Process
import Verif.Lemmas.Pumps
import Verif.Lemmas.Reals
import Verif.Lemmas.Rust
import Verif.Lemmas.Rw2
import Verif.Lemmas.Scale
import Verif.Lemmas.Seq
import Verif.Lemmas.ShippedCheck
import Verif.Lemmas.ShippedFiles
import Verif.Lemmas.ShippedFiles1
import Verif.Lemmas.ShippedFiles2
import Verif.Lemmas.ShippedFiles3
import Verif.Lemmas.ShippedFiles4
import Verif.Lemmas.ShippedMatrices1
import Verif.Lemmas.ShippedMatrices2
import Verif.Lemmas.ShippedMatrices3
import Verif.Lemmas.ShippedMatrices4
import Verif.Lemmas.Sizes
import Verif.Lemmas.Skips
import Verif.Lemmas.Stages
import Verif.Lemmas.Strips
import Verif.Lemmas.Subsampled
import Verif.Lemmas.Tiff
import Verif.Lemmas.TiffEntry
import Verif.Lemmas.Tree
import Verif.Lemmas.Utf8
import Verif.Lemmas.WholeFile
import Verif.Lemmas.Words
import Verif.Model.Basics
import Verif.Model.Camera
import Verif.Model.Cfa
import Verif.Model.Ciff
import Verif.Model.Curves
import Verif.Model.Dec.Arw
import Verif.Model.Dec.Cr2
import Verif.Model.Dec.Crw
import Verif.Model.Dec.Dcr
import Verif.Model.Dec.Dng
import Verif.Model.Dec.Iiq
import Verif.Model.Dec.Mos
import Verif.Model.Dec.Nef
import Verif.Model.Dec.Orf
import Verif.Model.Dec.Pef
import Verif.Model.Dec.Raf
import Verif.Model.Dec.Rw2
import Verif.Model.Dec.Simple
import Verif.Model.Dec.Srw
import Verif.Model.Huffman
import Verif.Model.Ljpeg
import Verif.Model.Loader
import Verif.Model.Matrix
import Verif.Model.OpBuffer
import Verif.Model.Packed
import Verif.Model.Parallel
import Verif.Model.Pipeline
import Verif.Model.Process
import Verif.Model.Program
import Verif.Model.Pumps
import Verif.Model.Shipped
import Verif.Model.Text
import Verif.Model.Tiff
import Verif.Model.TomlText
import Verif.Props.Arw1
import Verif.Props.Arw2
import Verif.Props.ArwFile
import Verif.Props.BalanceRatio
import Verif.Props.BaseCurve
import Verif.Props.Basics
import Verif.Props.BitDepth
import Verif.Props.Black
import Verif.Props.BlackPicture
import Verif.Props.Camera
import Verif.Props.Cfa
import Verif.Props.Ciff
import Verif.Props.CiffFile
import Verif.Props.Cr2File
import Verif.Props.Crw
import Verif.Props.CrwFile
import Verif.Props.Curves
import Verif.Props.CutOut
import Verif.Props.Dcr
import Verif.Props.Demosaic
import Verif.Props.Dispatch
import Verif.Props.Dither
import Verif.Props.DngFile
import Verif.Props.Fill
import Verif.Props.FitsAlready
import Verif.Props.FlatField
import Verif.Props.FourthChannel
import Verif.Props.Gamma
import Verif.Props.Gofloat
import Verif.Props.Hasselblad
import Verif.Props.Huffman
import Verif.Props.Iiq
import Verif.Props.Interlace
import Verif.Props.LeafStrips
import Verif.Props.Ljpeg
import Verif.Props.Markers
import Verif.Props.Matrix
import Verif.Props.MonoClip
import Verif.Props.MonoCurve
import Verif.Props.MosFile
import Verif.Props.Mrw
import Verif.Props.Nef
import Verif.Props.NefFile
import Verif.Props.OnePicture
import Verif.Props.Orf
import Verif.Props.OtherFile
import Verif.Props.Output
import Verif.Props.Packed
import Verif.Props.PackedMore
import Verif.Props.Pef
import Verif.Props.PixelLocal
import Verif.Props.Program
import Verif.Props.Pumps
import Verif.Props.RafFile
import Verif.Props.Rotate
import Verif.Props.RotateLast
import Verif.Props.Rw2
import Verif.Props.Scale
import Verif.Props.Scaling
import Verif.Props.ScalingWhole
import Verif.Props.Schedule
import Verif.Props.Shipped
import Verif.Props.ShippedCameras
import Verif.Props.ShippedColour
import Verif.Props.Slices
import Verif.Props.SmallFile
import Verif.Props.Sony
import Verif.Props.Srw1
import Verif.Props.Srw2
import Verif.Props.Srw3
import Verif.Props.SrwFile
import Verif.Props.Subsampled
import Verif.Props.Tiff
import Verif.Props.TiffFile
import Verif.Props.Tiles
import Verif.Props.Transform
import Verif.Props.WhiteCast
import Verif.Props.WhitePixel
import Verif.Props.WholeFile
import Verif.Rust
import Verif.Spec.Arw1
import Verif.Spec.Arw2
import Verif.Spec.Bits
import Verif.Spec.Black
import Verif.Spec.Camera
import Verif.Spec.Cfa
import Verif.Spec.Ciff
import Verif.Spec.Colour
import Verif.Spec.Cr2File
import Verif.Spec.Crw
import Verif.Spec.CrwFile
import Verif.Spec.Curve
import Verif.Spec.Dcr
import Verif.Spec.Demosaic
import Verif.Spec.Dispatch
import Verif.Spec.DngFile
import Verif.Spec.FujiFile
import Verif.Spec.Huffman
import Verif.Spec.Iiq
import Verif.Spec.Image
import Verif.Spec.LeafFile
import Verif.Spec.Ljpeg
import Verif.Spec.MrwFile
import Verif.Spec.Nef
import Verif.Spec.NikonFile
import Verif.Spec.Orf
import Verif.Spec.Pairs
import Verif.Spec.Ppm
import Verif.Spec.Rotation
import Verif.Spec.Rw2
import Verif.Spec.SamsungFile
import Verif.Spec.Scale
import Verif.Spec.Shipped
import Verif.Spec.Sony
import Verif.Spec.SonyFile
import Verif.Spec.Srw
import Verif.Spec.Srw1
import Verif.Spec.Srw3
import Verif.Spec.Stream
import Verif.Spec.Tiff
import Verif.Spec.TiffDir
import Verif.Spec.Tree
import Verif.Spec.WholeFile
import Verif.Spec.WideDir
import Verif.Axioms
