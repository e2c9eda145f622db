import Verif.Model.Alloc
import Verif.Model.Blend
import Verif.Model.BlendArith
import Verif.Model.Chunks
import Verif.Model.Core
import Verif.Model.Cost
import Verif.Model.CostLoad
import Verif.Model.CostRender
import Verif.Model.Enums
import Verif.Model.F64
import Verif.Model.File
import Verif.Model.Header
import Verif.Model.Inflate
import Verif.Model.Loader
import Verif.Model.Message
import Verif.Model.Readme
import Verif.Model.Saturation
import Verif.Model.Scalars
import Verif.Model.Select
import Verif.Model.SipHash
import Verif.Model.Tasks
import Verif.Model.UserData
import Verif.Model.Utf8
import Verif.Model.Width
import Verif.Spec.Accuracy
import Verif.Spec.Again
import Verif.Spec.Algebra
import Verif.Spec.Alloc
import Verif.Spec.Alone
import Verif.Spec.AsRead
import Verif.Spec.Assemble
import Verif.Spec.Baked
import Verif.Spec.Blend
import Verif.Spec.ByHand
import Verif.Spec.Camera
import Verif.Spec.Channels
import Verif.Spec.Chosen
import Verif.Spec.Chunks
import Verif.Spec.Codes
import Verif.Spec.ColorMode
import Verif.Spec.Crops
import Verif.Spec.Cut
import Verif.Spec.Damage
import Verif.Spec.DebugBuild
import Verif.Spec.Deflate
import Verif.Spec.Delete
import Verif.Spec.Edited
import Verif.Spec.Encode
import Verif.Spec.Eyes
import Verif.Spec.Fields
import Verif.Spec.File
import Verif.Spec.Film
import Verif.Spec.Grey
import Verif.Spec.Groups
import Verif.Spec.Hsl
import Verif.Spec.Ieee
import Verif.Spec.Image
import Verif.Spec.Insert
import Verif.Spec.Joined
import Verif.Spec.Kinds
import Verif.Spec.Layout
import Verif.Spec.Loader
import Verif.Spec.Look
import Verif.Spec.Message
import Verif.Spec.Moments
import Verif.Spec.Occurs
import Verif.Spec.Once
import Verif.Spec.OneFile
import Verif.Spec.Order
import Verif.Spec.Panics
import Verif.Spec.Patch
import Verif.Spec.Pieces
import Verif.Spec.PlainForm
import Verif.Spec.Possible
import Verif.Spec.PossibleFile
import Verif.Spec.Problems
import Verif.Spec.Properties
import Verif.Spec.Rearrange
import Verif.Spec.Redraw
import Verif.Spec.Reference
import Verif.Spec.Relabel
import Verif.Spec.Remove
import Verif.Spec.Render
import Verif.Spec.Repaint
import Verif.Spec.Reserved
import Verif.Spec.Restack
import Verif.Spec.Rewrite
import Verif.Spec.Sample
import Verif.Spec.Saturation
import Verif.Spec.Script
import Verif.Spec.Select
import Verif.Spec.Sheet
import Verif.Spec.Shown
import Verif.Spec.SoftLight
import Verif.Spec.Stable
import Verif.Spec.Stacked
import Verif.Spec.Strokes
import Verif.Spec.Swap
import Verif.Spec.Tasks
import Verif.Spec.Text
import Verif.Spec.Tilemaps
import Verif.Spec.Trim
import Verif.Spec.Turn
import Verif.Spec.Turned
import Verif.Spec.Ungroup
import Verif.Spec.Unpacked
import Verif.Spec.UserData
import Verif.Spec.Window
import Verif.Spec.Work
import Verif.Lemmas.Accuracy
import Verif.Lemmas.Algebra
import Verif.Lemmas.Alloc
import Verif.Lemmas.AsRead
import Verif.Lemmas.Assemble
import Verif.Lemmas.BadText
import Verif.Lemmas.Blend
import Verif.Lemmas.BlendModes
import Verif.Lemmas.Channels
import Verif.Lemmas.Chunks
import Verif.Lemmas.Codes
import Verif.Lemmas.Combinators
import Verif.Lemmas.Cost
import Verif.Lemmas.CostBound
import Verif.Lemmas.CostLoad
import Verif.Lemmas.CostLoadBound
import Verif.Lemmas.CostRender
import Verif.Lemmas.Cut
import Verif.Lemmas.Damage
import Verif.Lemmas.Deflate
import Verif.Lemmas.DeflateRun
import Verif.Lemmas.Edited
import Verif.Lemmas.Encode
import Verif.Lemmas.Errors
import Verif.Lemmas.F64Exact
import Verif.Lemmas.F64Real
import Verif.Lemmas.F64Rel
import Verif.Lemmas.Fields
import Verif.Lemmas.File
import Verif.Lemmas.Flags
import Verif.Lemmas.Flips
import Verif.Lemmas.Hash
import Verif.Lemmas.Hsl
import Verif.Lemmas.HslGrey
import Verif.Lemmas.Ieee
import Verif.Lemmas.IeeeBlend
import Verif.Lemmas.Image
import Verif.Lemmas.Inflate
import Verif.Lemmas.LoadErrors
import Verif.Lemmas.Loader
import Verif.Lemmas.Look
import Verif.Lemmas.Message
import Verif.Lemmas.Moments
import Verif.Lemmas.Palette
import Verif.Lemmas.Panics
import Verif.Lemmas.PanicsExact
import Verif.Lemmas.Parser
import Verif.Lemmas.Possible
import Verif.Lemmas.PossibleFile
import Verif.Lemmas.Profile
import Verif.Lemmas.Properties
import Verif.Lemmas.PropertyTrees
import Verif.Lemmas.Reference
import Verif.Lemmas.Render
import Verif.Lemmas.Reserved
import Verif.Lemmas.Rewrite
import Verif.Lemmas.Saturation
import Verif.Lemmas.Scalars
import Verif.Lemmas.SoftLight
import Verif.Lemmas.Stable
import Verif.Lemmas.Stops
import Verif.Lemmas.Tasks
import Verif.Lemmas.Total
import Verif.Lemmas.UserData
import Verif.Lemmas.UserDataChunk
import Verif.Lemmas.Utf8
import Verif.Lemmas.Width
import Verif.Props.Access
import Verif.Props.Accuracy
import Verif.Props.Again
import Verif.Props.Algebra
import Verif.Props.Alloc
import Verif.Props.Alone
import Verif.Props.Alpha
import Verif.Props.AsRead
import Verif.Props.Assemble
import Verif.Props.Attach
import Verif.Props.Baked
import Verif.Props.Blend
import Verif.Props.BlendFloat
import Verif.Props.ByHand
import Verif.Props.Camera
import Verif.Props.Channels
import Verif.Props.Chosen
import Verif.Props.Codes
import Verif.Props.ColorMode
import Verif.Props.Consequences
import Verif.Props.Cost
import Verif.Props.Cover
import Verif.Props.Crash
import Verif.Props.Crops
import Verif.Props.Cut
import Verif.Props.Damage
import Verif.Props.DebugBuild
import Verif.Props.Decompress
import Verif.Props.Delete
import Verif.Props.Dirty
import Verif.Props.Drawn
import Verif.Props.Edited
import Verif.Props.Enums
import Verif.Props.Errors
import Verif.Props.Exact
import Verif.Props.Eyes
import Verif.Props.Failed
import Verif.Props.Failures
import Verif.Props.Fields
import Verif.Props.File
import Verif.Props.Film
import Verif.Props.Follow
import Verif.Props.Framing
import Verif.Props.Grey
import Verif.Props.Groups
import Verif.Props.Hash
import Verif.Props.Header
import Verif.Props.Hsl
import Verif.Props.HslPanic
import Verif.Props.Ieee
import Verif.Props.IeeeBlend
import Verif.Props.Image
import Verif.Props.Insert
import Verif.Props.Invisible
import Verif.Props.Joined
import Verif.Props.Kinds
import Verif.Props.LayerFiles
import Verif.Props.Layouts
import Verif.Props.Load
import Verif.Props.LoadErrors
import Verif.Props.Look
import Verif.Props.Memory
import Verif.Props.Merge
import Verif.Props.Message
import Verif.Props.Moments
import Verif.Props.Occurs
import Verif.Props.Once
import Verif.Props.OneFile
import Verif.Props.Opacity
import Verif.Props.Order
import Verif.Props.Palette
import Verif.Props.Panics
import Verif.Props.PanicsExact
import Verif.Props.Patch
import Verif.Props.Pieces
import Verif.Props.PlainForm
import Verif.Props.Possible
import Verif.Props.PossibleFile
import Verif.Props.Problems
import Verif.Props.Profile
import Verif.Props.Properties
import Verif.Props.Readme
import Verif.Props.Rearrange
import Verif.Props.Redraw
import Verif.Props.Reference
import Verif.Props.Relabel
import Verif.Props.Remove
import Verif.Props.Render
import Verif.Props.Repaint
import Verif.Props.Reserved
import Verif.Props.Restack
import Verif.Props.Rewrite
import Verif.Props.RoundTrip
import Verif.Props.Saturation
import Verif.Props.Scalars
import Verif.Props.Script
import Verif.Props.Select
import Verif.Props.Sheet
import Verif.Props.Shown
import Verif.Props.Sizes
import Verif.Props.Stable
import Verif.Props.Stacked
import Verif.Props.Storage
import Verif.Props.Strokes
import Verif.Props.Swap
import Verif.Props.Tasks
import Verif.Props.Tilemaps
import Verif.Props.Trim
import Verif.Props.Truncation
import Verif.Props.Turn
import Verif.Props.Turned
import Verif.Props.Ungroup
import Verif.Props.Unpacked
import Verif.Props.UserData
import Verif.Props.Width
import Verif.Props.Window
import Verif.Props.Zlib
import Verif.Tests.Conformance
import Verif.Tests.Files
