import Verif.Model.Basic
import Verif.Model.Bounds
import Verif.Model.Cost
import Verif.Model.Debug
import Verif.Model.DebugTree
import Verif.Model.Depth
import Verif.Model.Elem
import Verif.Model.Equality
import Verif.Model.Floats
import Verif.Model.Ints
import Verif.Model.Lexer
import Verif.Model.Main
import Verif.Model.Matrix
import Verif.Model.Parser
import Verif.Model.SceneEquality
import Verif.Model.Transform
import Verif.Model.Vector
import Verif.Proof.BreakOff
import Verif.Proof.Contents
import Verif.Proof.CostBound
import Verif.Proof.CostSim
import Verif.Proof.CutText
import Verif.Proof.DebugTree
import Verif.Proof.DebugValues
import Verif.Proof.Depth
import Verif.Proof.Edit
import Verif.Proof.Erase
import Verif.Proof.Exact
import Verif.Proof.Faults
import Verif.Proof.FloatDiv
import Verif.Proof.FloatErr
import Verif.Proof.FloatOrder
import Verif.Proof.FloatRound
import Verif.Proof.FloatText
import Verif.Proof.FloatType
import Verif.Proof.FloatTypeParser
import Verif.Proof.FloatVal
import Verif.Proof.Format
import Verif.Proof.Frame
import Verif.Proof.Fuel
import Verif.Proof.Gauss
import Verif.Proof.IEEE
import Verif.Proof.Inversion
import Verif.Proof.LexAll
import Verif.Proof.LexBasic
import Verif.Proof.LexNum
import Verif.Proof.LexOne
import Verif.Proof.LexProps
import Verif.Proof.LexText
import Verif.Proof.Mirror
import Verif.Proof.Nearest
import Verif.Proof.NoOverflow
import Verif.Proof.Order
import Verif.Proof.ParamFaults
import Verif.Proof.ParseBasic
import Verif.Proof.ParseCut
import Verif.Proof.ParseDir
import Verif.Proof.ParseList
import Verif.Proof.ParseParam
import Verif.Proof.ParsePre
import Verif.Proof.ParseProps
import Verif.Proof.Printer
import Verif.Proof.Reorder
import Verif.Proof.Reports
import Verif.Proof.Rounding
import Verif.Proof.SceneEquality
import Verif.Proof.Size
import Verif.Proof.Spellings
import Verif.Proof.Sphere
import Verif.Proof.Stability
import Verif.Proof.TwoPrecisions
import Verif.Proof.Units
import Verif.Proof.Writer
import Verif.Proof.Zones
import Verif.Props.Approximate
import Verif.Props.BackAndForth
import Verif.Props.Boxes
import Verif.Props.BreakOff
import Verif.Props.Builds
import Verif.Props.Components
import Verif.Props.Cost
import Verif.Props.CutText
import Verif.Props.DebugText
import Verif.Props.Depth
import Verif.Props.Displayed
import Verif.Props.Edit
import Verif.Props.Equality
import Verif.Props.ExponentText
import Verif.Props.Extents
import Verif.Props.Faults
import Verif.Props.FloatBoxes
import Verif.Props.FloatError
import Verif.Props.FloatText
import Verif.Props.FloatTransforms
import Verif.Props.FloatType
import Verif.Props.Floats
import Verif.Props.FloorCeil
import Verif.Props.Format
import Verif.Props.Frame
import Verif.Props.Glued
import Verif.Props.Infinite
import Verif.Props.Interpolation
import Verif.Props.Intersections
import Verif.Props.Inverses
import Verif.Props.Inversion
import Verif.Props.Layout
import Verif.Props.Length
import Verif.Props.Lexing
import Verif.Props.Literals
import Verif.Props.Main
import Verif.Props.Matrices
import Verif.Props.Measures
import Verif.Props.Messages
import Verif.Props.Mirror
import Verif.Props.Moderate
import Verif.Props.Moved
import Verif.Props.Nan
import Verif.Props.Nearby
import Verif.Props.NormalTransforms
import Verif.Props.Numbers
import Verif.Props.Offsets
import Verif.Props.ParamFaults
import Verif.Props.Parsing
import Verif.Props.PixelOrder
import Verif.Props.Pixels
import Verif.Props.Prefix
import Verif.Props.Printer
import Verif.Props.Rays
import Verif.Props.Reading
import Verif.Props.Relabel
import Verif.Props.Reorder
import Verif.Props.Reports
import Verif.Props.RoundTrip
import Verif.Props.ScaleTest
import Verif.Props.SceneEquality
import Verif.Props.Scientific
import Verif.Props.Shown
import Verif.Props.Size
import Verif.Props.Slabs
import Verif.Props.Spellings
import Verif.Props.Sphere
import Verif.Props.SphereRange
import Verif.Props.Stability
import Verif.Props.Tables
import Verif.Props.TripleProducts
import Verif.Props.TwoPrecisions
import Verif.Props.UnitTests
import Verif.Props.UnitVectors
import Verif.Props.Units
import Verif.Props.UnitsDecide
import Verif.Props.Vectors
import Verif.Props.Version3
import Verif.Props.Whole
import Verif.Props.Zones
import Verif.Spec.BreakOff
import Verif.Spec.Builds
import Verif.Spec.Concrete
import Verif.Spec.Conditioning
import Verif.Spec.Contents
import Verif.Spec.CutText
import Verif.Spec.DebugText
import Verif.Spec.Depth
import Verif.Spec.Edit
import Verif.Spec.Equality
import Verif.Spec.Erase
import Verif.Spec.Faults
import Verif.Spec.FloatText
import Verif.Spec.FloatTransforms
import Verif.Spec.FloatType
import Verif.Spec.FloatValue
import Verif.Spec.Format
import Verif.Spec.Frame
import Verif.Spec.Geometry
import Verif.Spec.Glued
import Verif.Spec.Infinite
import Verif.Spec.Laws
import Verif.Spec.Lexical
import Verif.Spec.Literals
import Verif.Spec.Messages
import Verif.Spec.Mirror
import Verif.Spec.Moderate
import Verif.Spec.Moved
import Verif.Spec.Nan
import Verif.Spec.Near
import Verif.Spec.Numbers
import Verif.Spec.ParamFaults
import Verif.Spec.Prefix
import Verif.Spec.Printer
import Verif.Spec.Reader
import Verif.Spec.Reading
import Verif.Spec.Relabel
import Verif.Spec.Reorder
import Verif.Spec.Reports
import Verif.Spec.Samples
import Verif.Spec.ScaleTest
import Verif.Spec.Scene
import Verif.Spec.SceneEquality
import Verif.Spec.Scientific
import Verif.Spec.Shown
import Verif.Spec.Size
import Verif.Spec.Spellings
import Verif.Spec.Sphere
import Verif.Spec.Tables
import Verif.Spec.TwoPrecisions
import Verif.Spec.Units
import Verif.Spec.Version3
import Verif.Spec.Whole
import Verif.Spec.Writer
import Verif.Spec.Zones
