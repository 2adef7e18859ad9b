import Verif.Model.Cli
import Verif.Props.Load
import Verif.Props.Edit
import Verif.Props.Lex
import Verif.Props.Format
import Verif.Props.Compare
import Verif.Props.Machine
import Verif.Props.Analysis
import Verif.Props.Filter
import Verif.Props.RelExt
import Verif.Props.Visit
import Verif.Props.TempCal
import Verif.Props.Arc
import Verif.Props.ArcGeometry
import Verif.Props.Stretch
import Verif.Props.Vector3
import Verif.Props.Cli
import Verif.Props.StretchWalk
import Verif.Props.Grammar
import Verif.Props.Neighbour
import Verif.Props.Shape
import Verif.Props.Height
import Verif.Props.Announce
import Verif.Props.ArcCount
import Verif.Props.ArcSafe
import Verif.Props.Callback
import Verif.Props.Heater
import Verif.Props.Commute
import Verif.Props.Light
import Verif.Props.Duration
import Verif.Props.StretchTrack
import Verif.Props.StretchTool
import Verif.Props.Alias
import Verif.Props.Mod
import Verif.Props.ArcPath
import Verif.Props.ArcFound
import Verif.Props.Framing
import Verif.Props.Words
import Verif.Props.ArcRadius
import Verif.Props.Elsewhere
import Verif.Props.Bystander
import Verif.Props.Placed
import Verif.Props.Survive
import Verif.Props.Repeat
import Verif.Props.Chain
import Verif.Props.ArcElsewhere
import Verif.Props.ArcBehind
import Verif.Props.ArcRelative
import Verif.Props.Converted
import Verif.Props.Saved
import Verif.Props.Reuse
import Verif.Conform.Tests
import Verif.Conform.Run
import Verif.Props.Shown
import Verif.Props.Report
import Verif.Props.Measured
import Verif.Props.Pauses
import Verif.Props.Runs
import Verif.Props.Layout
import Verif.Props.Profile
import Verif.Props.LightFilter
import Verif.Props.Spiral
import Verif.Props.Changes
import Verif.Props.Prepare
import Verif.Props.Strength
import Verif.Props.ArcPieces
import Verif.Props.KeptLayers
import Verif.Props.ArcHeight
import Verif.Props.SavedStretch
import Verif.Props.LayerTime
import Verif.Props.Inches
import Verif.Props.Turned
import Verif.Props.ArcTurned
import Verif.Props.StretchTurned
import Verif.Props.Stdin
import Verif.Props.Vector3Num
import Verif.Props.OptionRuns
import Verif.Props.OptionPause
import Verif.Props.OptionTower
import Verif.Props.SameTower
import Verif.Props.TowerAll
import Verif.Props.Witness
import Verif.Props.PlacedTime
import Verif.Props.MovedTime
import Verif.Props.Quicker
import Verif.Props.TowerTime
import Verif.Props.Cut
import Verif.Props.CutTool
import Verif.Props.Waits
import Verif.Props.LaterLayers
import Verif.Props.StretchErrors
import Verif.Props.CuraHang
import Verif.Props.CuraWalk
import Verif.Props.CuraEnds
import Verif.Props.SlicEnds
import Verif.Props.SkeinHang
