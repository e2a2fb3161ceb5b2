import Verif.Py.Num
import Verif.Py.Val
import Verif.Model.Vector
import Verif.Model.Direction
import Verif.Model.Color
import Verif.Model.Tile
import Verif.Proofs.NumDiv
import Verif.Proofs.Sort
import Verif.Proofs.Except
import Verif.Proofs.Entity
import Verif.Proofs.World
import Verif.Props.Directions
import Verif.Props.Vectors
import Verif.Props.Colors
import Verif.Props.Tiles
import Verif.Py.Sort
import Verif.Py.C3
import Verif.Py.Text
import Verif.Model.Classes
import Verif.Model.Env
import Verif.Model.Mixins
import Verif.Model.Control
import Verif.Model.Entity
import Verif.Model.Connection
import Verif.Model.World
import Verif.Model.Blueprint
import Verif.Spec.Layers
import Verif.Proofs.Order
import Verif.Proofs.Layer
import Verif.Proofs.Load
import Verif.Props.Sample
import Verif.Props.Layers
import Verif.Spec.Wires
import Verif.Spec.View
import Verif.Proofs.Wires
import Verif.Proofs.LoadBase
import Verif.Proofs.Export
import Verif.Proofs.View
import Verif.Spec.Load
import Verif.Spec.Color
import Verif.Proofs.Color
import Verif.Proofs.Data
import Verif.Proofs.Content
import Verif.Props.Load
import Verif.Props.Content
import Verif.Proofs.Dict
import Verif.Proofs.WireExport
import Verif.Proofs.Repeat
import Verif.Props.Wires
import Verif.Spec.Tables
import Verif.Props.Tables
import Verif.Proofs.Each
import Verif.Spec.Extent
import Verif.Proofs.Extent
import Verif.Props.Extent
import Verif.Proofs.C3
import Verif.Proofs.Classes
import Verif.Spec.Rotation
import Verif.Proofs.Attrs
import Verif.Proofs.Rotate
import Verif.Proofs.RotateAll
import Verif.Props.Rotation
import Verif.Spec.Names
import Verif.Proofs.Chain
import Verif.Proofs.Make
import Verif.Proofs.Names
import Verif.Proofs.Settings
import Verif.Props.Names
import Verif.Props.Settings
import Verif.Props.TileLayer
import Verif.Py.Base64
import Verif.Py.Json
import Verif.Model.Codec
import Verif.Spec.Codec
import Verif.Proofs.Base64
import Verif.Proofs.Codec
import Verif.Proofs.Json
import Verif.Proofs.JsonText
import Verif.Props.Codec
import Verif.Model.Gatherer
import Verif.Proofs.Gatherer
import Verif.Proofs.Rename
import Verif.Props.Prototypes
import Verif.Spec.Prototypes
import Verif.Proofs.CbTrip
import Verif.Proofs.CombiTrip
import Verif.Proofs.MxTrip
import Verif.Proofs.Trip
import Verif.Proofs.EntTrip
import Verif.Proofs.RoundTrip
import Verif.Props.RoundTrip
import Verif.Spec.RoundTrip
import Verif.Model.Residue
import Verif.Proofs.Residue
import Verif.Props.Residue
import Verif.Spec.Residue
import Verif.Proofs.Reload
import Verif.Proofs.ReloadAll
import Verif.Props.Reload
import Verif.Spec.Reload
import Verif.Proofs.JsonFuel
import Verif.Model.Condition
import Verif.Proofs.Condition
import Verif.Props.Conditions
import Verif.Tests.RepoTests
import Verif.Model.Assign
import Verif.Proofs.Assign
import Verif.Proofs.AssignMake
import Verif.Proofs.AssignTrip
import Verif.Proofs.AssignOps
import Verif.Props.Assign
import Verif.Spec.Assign
import Verif.Proofs.ResidueExact
import Verif.Proofs.WireOrder
import Verif.Props.WireOrder
import Verif.Proofs.Tidy
import Verif.Props.Tidy
import Verif.Spec.Tidy
import Verif.Proofs.Isolation
import Verif.Props.Isolation
import Verif.Spec.Isolation
import Verif.Model.LuaJson
import Verif.Proofs.LuaJson
import Verif.Props.LuaJson
import Verif.Spec.LuaJson
import Verif.Props.SecondLoad
import Verif.Props.Usable
import Verif.Props.Copper
import Verif.Props.KeyOrder
import Verif.Props.Placement
import Verif.Props.Rewire
import Verif.Props.Types
import Verif.Spec.KeyOrder
import Verif.Spec.Placement
import Verif.Spec.Types
import Verif.Model.Defaults
import Verif.Proofs.ItemNames
import Verif.Props.ItemNames
import Verif.Spec.ItemNames
import Verif.Proofs.Unread
import Verif.Proofs.CbPut
import Verif.Proofs.Flagless
import Verif.Proofs.Head
import Verif.Proofs.Reparse
import Verif.Props.Construct
import Verif.Props.Head
import Verif.Props.Reparse
import Verif.Props.Sorting
import Verif.Spec.Construct
import Verif.Spec.Head
import Verif.Spec.Reparse
import Verif.Model.Floats
import Verif.Proofs.Doubles
import Verif.Proofs.Floats
import Verif.Props.Floats
import Verif.Spec.Floats
import Verif.Model.LuaParse
import Verif.Proofs.LuaParse
import Verif.Proofs.Moved
import Verif.Props.LuaParse
import Verif.Props.Moved
import Verif.Spec.LuaParse
import Verif.Spec.Moved
import Verif.Proofs.LuaFuel
import Verif.Model.LiveLoop
import Verif.Proofs.CondPut
import Verif.Proofs.LiveLoop
import Verif.Proofs.Text
import Verif.Proofs.WholePut
import Verif.Props.LiveLoop
import Verif.Props.Texts
import Verif.Spec.LiveLoop
import Verif.Spec.Text
import Verif.Model.Printed
import Verif.Proofs.Printed
import Verif.Props.Printed
import Verif.Spec.Printed
import Verif.Proofs.Behaviours
import Verif.Props.Behaviours
import Verif.Spec.Behaviours
import Verif.Model.Subclass
import Verif.Proofs.FloatExtent
import Verif.Props.Subclass
import Verif.Spec.Subclass
import Verif.Proofs.Decimal
import Verif.Proofs.Round
import Verif.Proofs.Volume
import Verif.Props.Volume
import Verif.Py.Round
import Verif.Spec.Doubles
import Verif.Model.LuaNumber
import Verif.Proofs.LuaNumber
import Verif.Proofs.Repr
import Verif.Proofs.Shortest
import Verif.Props.FloatText
import Verif.Props.LuaNumber
import Verif.Py.Repr
import Verif.Spec.FloatText
import Verif.Proofs.Custom
import Verif.Props.Custom
import Verif.Proofs.CustomRun
import Verif.Props.CustomReload
import Verif.Proofs.Raise
import Verif.Proofs.RaiseExport
import Verif.Proofs.RaiseLoad
import Verif.Props.Raise
import Verif.Spec.Raise
import Verif.Proofs.Base64Text
import Verif.Proofs.JsonGrammar
import Verif.Props.JsonText
import Verif.Spec.Base64
import Verif.Spec.Json
import Verif.Proofs.Shown
import Verif.Proofs.ShownCombi
import Verif.Proofs.ShownControl
import Verif.Proofs.ShownEntity
import Verif.Props.Shown
import Verif.Spec.Shown
import Verif.Proofs.DataWires
import Verif.Proofs.ShownSlots
import Verif.Props.DataWires
import Verif.Spec.DataWires
import Verif.Proofs.Accept
import Verif.Proofs.Blend
import Verif.Props.Accept
import Verif.Props.Blend
import Verif.Spec.Accept
import Verif.Spec.Blend
import Verif.Proofs.Exportable
import Verif.Props.Exportable
import Verif.Spec.Exportable
import Verif.Proofs.Refused
import Verif.Proofs.Settable
import Verif.Proofs.SettableEntity
import Verif.Props.Refused
import Verif.Props.Settable
import Verif.Spec.Refused
import Verif.Spec.Settable
import Verif.Proofs.AllOrNothing
import Verif.Proofs.MoreTables
import Verif.Props.AllOrNothing
import Verif.Props.MoreTables
import Verif.Spec.AllOrNothing
import Verif.Spec.MoreTables
