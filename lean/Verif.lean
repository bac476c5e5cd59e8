import Verif.Axioms
import Verif.Lemmas.AnyInput
import Verif.Lemmas.Cdf
import Verif.Lemmas.Codes
import Verif.Lemmas.Cost
import Verif.Lemmas.Elements
import Verif.Lemmas.FrameFront
import Verif.Lemmas.FrameHeader
import Verif.Lemmas.HeaderAgain
import Verif.Lemmas.HeaderLeaves
import Verif.Lemmas.Learn
import Verif.Lemmas.Parser
import Verif.Lemmas.Quantizer
import Verif.Lemmas.RangeCoder
import Verif.Lemmas.RangeDecode
import Verif.Lemmas.Reach
import Verif.Lemmas.SeqHeader
import Verif.Lemmas.Session
import Verif.Lemmas.Util
import Verif.Model.BoolCoder
import Verif.Model.Cli
import Verif.Model.Codes
import Verif.Model.Common
import Verif.Model.Context
import Verif.Model.DefaultCdf
import Verif.Model.DefaultCdf1
import Verif.Model.DefaultCdf2
import Verif.Model.DefaultCdf3
import Verif.Model.DefaultCdf4
import Verif.Model.Emit
import Verif.Model.Encoder
import Verif.Model.FilmGrain
import Verif.Model.FrameFront
import Verif.Model.FrameHeader
import Verif.Model.FrameWhole
import Verif.Model.GlobalMotion
import Verif.Model.HeaderLeft
import Verif.Model.Lr
import Verif.Model.Main
import Verif.Model.ModeInfo
import Verif.Model.MvStack
import Verif.Model.Names
import Verif.Model.Obu
import Verif.Model.Partition
import Verif.Model.Quantizer
import Verif.Model.ReconTables
import Verif.Model.Search
import Verif.Model.Session
import Verif.Model.Stream
import Verif.Model.Tables
import Verif.Model.Tile
import Verif.Model.Util
import Verif.Model.Writer
import Verif.Props.Announced
import Verif.Props.AnyInput
import Verif.Props.Av1Symbols
import Verif.Props.BlockCopy
import Verif.Props.BlockHead
import Verif.Props.BlockInfo
import Verif.Props.Candidates
import Verif.Props.Canonical
import Verif.Props.Cli
import Verif.Props.Codes
import Verif.Props.CoeffContexts
import Verif.Props.CommandLine
import Verif.Props.Contexts
import Verif.Props.Cosine
import Verif.Props.Cost
import Verif.Props.Cover
import Verif.Props.Decoder
import Verif.Props.DefaultTables
import Verif.Props.EdgePartition
import Verif.Props.Elements
import Verif.Props.FilmGrain
import Verif.Props.Filters
import Verif.Props.FrameFilters
import Verif.Props.FrameFront
import Verif.Props.FrameParams
import Verif.Props.FrameState
import Verif.Props.FrameWhole
import Verif.Props.Framing
import Verif.Props.FrontState
import Verif.Props.Geometry
import Verif.Props.GlobalMotion
import Verif.Props.HeaderAgain
import Verif.Props.HeaderLeft
import Verif.Props.Learn
import Verif.Props.Metadata
import Verif.Props.ModeInfo
import Verif.Props.MoreContexts
import Verif.Props.Motion
import Verif.Props.MvStack
import Verif.Props.Names
import Verif.Props.OwnTable
import Verif.Props.Partition
import Verif.Props.Pending
import Verif.Props.Picture
import Verif.Props.Process
import Verif.Props.QmSample
import Verif.Props.Quantizer
import Verif.Props.RangeCoder
import Verif.Props.Restoration
import Verif.Props.Reuse
import Verif.Props.Run
import Verif.Props.Search
import Verif.Props.SegExact
import Verif.Props.SelfGuided
import Verif.Props.SeqHeader
import Verif.Props.SeqSize
import Verif.Props.Stream
import Verif.Props.TileGroup
import Verif.Props.TileWalk
import Verif.Props.Tiles
import Verif.Props.Transform
import Verif.Props.Tree
import Verif.Props.Util
import Verif.Props.WholeFile
import Verif.Props.WholeOutput
import Verif.Props.Writer
import Verif.Spec.Announced
import Verif.Spec.AnyInput
import Verif.Spec.Av1Symbols
import Verif.Spec.Bits
import Verif.Spec.BlockHead
import Verif.Spec.Candidates
import Verif.Spec.Cdf
import Verif.Spec.CommandLine
import Verif.Spec.Cost
import Verif.Spec.Decoder
import Verif.Spec.Elements
import Verif.Spec.Family
import Verif.Spec.FilmGrain
import Verif.Spec.FrameFront
import Verif.Spec.FrameLayout
import Verif.Spec.FrameWhole
import Verif.Spec.GlobalMotion
import Verif.Spec.HeaderLeft
import Verif.Spec.Names
import Verif.Spec.Obu
import Verif.Spec.OwnTable
import Verif.Spec.Parser
import Verif.Spec.PartFlag
import Verif.Spec.Reach
import Verif.Spec.SeqLayout
import Verif.Spec.Session
import Verif.Spec.Tree
