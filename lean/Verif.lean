import Verif.Axioms
import Verif.Model.Attrs
import Verif.Model.BBox
import Verif.Model.Bake
import Verif.Model.Brownian
import Verif.Model.Cache
import Verif.Model.ColorOps
import Verif.Model.ColorUtils
import Verif.Model.Compute
import Verif.Model.Config
import Verif.Model.Data
import Verif.Model.Deform
import Verif.Model.DeformTransform
import Verif.Model.Enums
import Verif.Model.FastPow
import Verif.Model.Float
import Verif.Model.FxHash
import Verif.Model.Graph
import Verif.Model.GraphCpp
import Verif.Model.GraphIter
import Verif.Model.Hash
import Verif.Model.Host
import Verif.Model.Ieee
import Verif.Model.Image
import Verif.Model.Int32
import Verif.Model.Interp
import Verif.Model.Loop
import Verif.Model.Lut
import Verif.Model.Memory
import Verif.Model.Mesh
import Verif.Model.Node
import Verif.Model.NodeHash
import Verif.Model.Oiio
import Verif.Model.OpAttrs
import Verif.Model.Path
import Verif.Model.PixelBlock
import Verif.Model.Plane
import Verif.Model.Plugin
import Verif.Model.Prelude
import Verif.Model.Remap
import Verif.Model.SipHash
import Verif.Model.StableGraph
import Verif.Model.Stream
import Verif.Model.StreamApply
import Verif.Model.Threads
import Verif.Model.Xform
import Verif.Proofs.Again
import Verif.Proofs.Along
import Verif.Proofs.AttrBack
import Verif.Proofs.AttrEval
import Verif.Proofs.AttrSimp
import Verif.Proofs.Attrs
import Verif.Proofs.Block
import Verif.Proofs.Builds
import Verif.Proofs.Built
import Verif.Proofs.Cache
import Verif.Proofs.CacheGood
import Verif.Proofs.CacheHist
import Verif.Proofs.CacheInv
import Verif.Proofs.CacheKeys
import Verif.Proofs.CacheRun
import Verif.Proofs.CacheSim
import Verif.Proofs.ExecRule
import Verif.Proofs.Execute
import Verif.Proofs.FinFloat
import Verif.Proofs.FxHash
import Verif.Proofs.Graph
import Verif.Proofs.GraphIter
import Verif.Proofs.Grid
import Verif.Proofs.Ieee
import Verif.Proofs.IeeeError
import Verif.Proofs.IeeeFloor
import Verif.Proofs.IeeeMono
import Verif.Proofs.IeeeOrder
import Verif.Proofs.IeeeRound
import Verif.Proofs.IeeeSame
import Verif.Proofs.IeeeScale
import Verif.Proofs.IeeeSpacing
import Verif.Proofs.Locality
import Verif.Proofs.NodeHash
import Verif.Proofs.Picture
import Verif.Proofs.Pixels
import Verif.Proofs.Plane
import Verif.Proofs.Recall
import Verif.Proofs.Relate
import Verif.Proofs.RelateAt
import Verif.Proofs.Rename
import Verif.Proofs.Render
import Verif.Proofs.Room
import Verif.Proofs.SafeBake
import Verif.Proofs.SafeRule
import Verif.Proofs.SameRun
import Verif.Proofs.SipHash
import Verif.Proofs.Sized
import Verif.Proofs.Srgb
import Verif.Proofs.Tame
import Verif.Proofs.Walks
import Verif.Proofs.Writer
import Verif.Props.Again
import Verif.Props.Alike
import Verif.Props.Attrs
import Verif.Props.BBox
import Verif.Props.Bake
import Verif.Props.BakeDeform
import Verif.Props.Bars
import Verif.Props.Blocks
import Verif.Props.Brighter
import Verif.Props.Brownian
import Verif.Props.Builds
import Verif.Props.Built
import Verif.Props.Cache
import Verif.Props.CacheLimit
import Verif.Props.CacheRun
import Verif.Props.Center
import Verif.Props.Channels
import Verif.Props.Clamp
import Verif.Props.Collision
import Verif.Props.ColorOps
import Verif.Props.Commute
import Verif.Props.Compute
import Verif.Props.Config
import Verif.Props.Convert
import Verif.Props.Copy
import Verif.Props.CropEarly
import Verif.Props.Data
import Verif.Props.Decode
import Verif.Props.Defaults
import Verif.Props.Deform
import Verif.Props.DeformHash
import Verif.Props.DeformPixels
import Verif.Props.Enums
import Verif.Props.Exchange
import Verif.Props.Execute
import Verif.Props.Exposure
import Verif.Props.Farm
import Verif.Props.FileSame
import Verif.Props.FileShows
import Verif.Props.Frames
import Verif.Props.GradeError
import Verif.Props.GradeOrder
import Verif.Props.Graph
import Verif.Props.GraphIter
import Verif.Props.Hash
import Verif.Props.Host
import Verif.Props.Idle
import Verif.Props.IeeeColor
import Verif.Props.IeeeConfig
import Verif.Props.IeeeConvert
import Verif.Props.IeeeLut
import Verif.Props.IeeeMerge
import Verif.Props.IeeePlane
import Verif.Props.IeeeRemap
import Verif.Props.IeeeTransform
import Verif.Props.IeeeTypes
import Verif.Props.IeeeWindow
import Verif.Props.Image
import Verif.Props.Interp
import Verif.Props.Interpolate
import Verif.Props.Layers
import Verif.Props.Lens
import Verif.Props.Levels
import Verif.Props.Light
import Verif.Props.Local
import Verif.Props.Locality
import Verif.Props.Lut
import Verif.Props.LutStale
import Verif.Props.MatrixError
import Verif.Props.MergeMoved
import Verif.Props.Mesh
import Verif.Props.MeshPipeline
import Verif.Props.Metadata
import Verif.Props.MetadataCached
import Verif.Props.Moved
import Verif.Props.Names
import Verif.Props.NodeHash
import Verif.Props.Oiio
import Verif.Props.Onlook
import Verif.Props.Over
import Verif.Props.Patch
import Verif.Props.Path
import Verif.Props.Picture
import Verif.Props.PictureCached
import Verif.Props.PictureGraph
import Verif.Props.PictureResample
import Verif.Props.PixelBlock
import Verif.Props.Plane
import Verif.Props.Plugin
import Verif.Props.Precomp
import Verif.Props.PrecompCrop
import Verif.Props.Premultiplied
import Verif.Props.Preview
import Verif.Props.ReadFailure
import Verif.Props.RealNodes
import Verif.Props.Recall
import Verif.Props.Remap
import Verif.Props.Render
import Verif.Props.Replace
import Verif.Props.Rerun
import Verif.Props.ResampleNode
import Verif.Props.ReverseGrade
import Verif.Props.Room
import Verif.Props.Rows
import Verif.Props.Safe
import Verif.Props.Settle
import Verif.Props.SettleCached
import Verif.Props.Sheet
import Verif.Props.Shift
import Verif.Props.ShiftMesh
import Verif.Props.Shown
import Verif.Props.Simple
import Verif.Props.Sized
import Verif.Props.Slots
import Verif.Props.Srgb
import Verif.Props.StillFrames
import Verif.Props.Stops
import Verif.Props.StreamState
import Verif.Props.Threads
import Verif.Props.Tiles
import Verif.Props.Turn
import Verif.Props.TurnFile
import Verif.Props.TurnMesh
import Verif.Props.Undo
import Verif.Props.View
import Verif.Props.Walks
import Verif.Props.Xform
import Verif.Spec.Again
import Verif.Spec.Alike
import Verif.Spec.Attrs
import Verif.Spec.BBox
import Verif.Spec.Bars
import Verif.Spec.Block
import Verif.Spec.Blocks
import Verif.Spec.Brighter
import Verif.Spec.Brownian
import Verif.Spec.Builds
import Verif.Spec.Built
import Verif.Spec.Cache
import Verif.Spec.CacheLimit
import Verif.Spec.CacheRun
import Verif.Spec.Channels
import Verif.Spec.Clamp
import Verif.Spec.ColorOps
import Verif.Spec.Compute
import Verif.Spec.Copy
import Verif.Spec.Defaults
import Verif.Spec.Deform
import Verif.Spec.Exchange
import Verif.Spec.Execute
import Verif.Spec.Exposure
import Verif.Spec.Field
import Verif.Spec.FileShows
import Verif.Spec.GradeError
import Verif.Spec.GradeOrder
import Verif.Spec.Graph
import Verif.Spec.Host
import Verif.Spec.Idle
import Verif.Spec.Ieee
import Verif.Spec.Image
import Verif.Spec.Interpolate
import Verif.Spec.Layers
import Verif.Spec.Lens
import Verif.Spec.Levels
import Verif.Spec.Light
import Verif.Spec.Local
import Verif.Spec.Lut
import Verif.Spec.Metadata
import Verif.Spec.Moved
import Verif.Spec.Names
import Verif.Spec.NodeHash
import Verif.Spec.Obj
import Verif.Spec.Oiio
import Verif.Spec.Onlook
import Verif.Spec.Patch
import Verif.Spec.Path
import Verif.Spec.Picture
import Verif.Spec.PictureGraph
import Verif.Spec.Pixels
import Verif.Spec.Plain
import Verif.Spec.Plane
import Verif.Spec.Plugin
import Verif.Spec.Precomp
import Verif.Spec.Premultiplied
import Verif.Spec.Preview
import Verif.Spec.ReadFailure
import Verif.Spec.Recall
import Verif.Spec.Remap
import Verif.Spec.Render
import Verif.Spec.Replace
import Verif.Spec.Resample
import Verif.Spec.Room
import Verif.Spec.Safe
import Verif.Spec.Settle
import Verif.Spec.Sheet
import Verif.Spec.Shift
import Verif.Spec.Simple
import Verif.Spec.Sized
import Verif.Spec.Srgb
import Verif.Spec.StillFrames
import Verif.Spec.Stops
import Verif.Spec.Tiles
import Verif.Spec.Turn
import Verif.Spec.TurnMesh
import Verif.Spec.Undo
import Verif.Spec.View
import Verif.Spec.Walks
