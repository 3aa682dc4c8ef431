import Verif.Props.Garden
import Verif.Props.Cannon
import Verif.Props.Run
import Verif.Props.AgesToTime
import Verif.Props.EjectaTime
import Verif.Props.TimeArray
import Verif.Props.Strat
import Verif.Props.Labels
import Verif.Props.Rounding
import Verif.Props.Random
import Verif.Props.Split
import Verif.Props.Retention
import Verif.Props.Geo
import Verif.Props.Transient
import Verif.Props.Ballistic
import Verif.Props.Dists
import Verif.Props.EjectaThick
import Verif.Spec.BasinLaw
import Verif.Props.BasinLaw
import Verif.Props.Scaling
import Verif.Props.Prieur
import Verif.Props.Sfd
import Verif.Props.IceThick
import Verif.Props.Volcanic
import Verif.Props.Solar
import Verif.Props.Flux
import Verif.Props.Mixing
import Verif.Props.Melt
import Verif.Props.Bsed
import Verif.Props.Config
import Verif.Props.ConfigRound
import Verif.Props.ConfigPath
import Verif.Props.Where
import Verif.Props.Files
import Verif.Props.Cache
import Verif.Props.Thermal
import Verif.Props.Grid
import Verif.Props.Plot
import Verif.Props.Aggregate
import Verif.Props.Main
import Verif.Props.MainEjecta
import Verif.Props.Impact
import Verif.Props.ImpactRun
import Verif.Props.StratLabels
import Verif.Props.MainLabels
import Verif.Props.CfgRun
import Verif.Props.Agg
import Verif.Props.DefaultCfg
import Verif.Props.MeltFrames
import Verif.Props.PlotStrat
import Verif.Props.MainPhysical
import Verif.Model.PlotColumn
import Verif.Spec.PlotColumn
import Verif.Spec.Prieur
import Verif.Lemmas.PlotColumn
import Verif.Props.PlotColumn
import Verif.Model.Cmap
import Verif.Spec.Cmap
import Verif.Props.Cmap
import Verif.Props.StratFl
import Verif.Model.IceByModule
import Verif.Spec.IceByModule
import Verif.Props.IceByModule
import Verif.Model.EraBars
import Verif.Spec.EraBars
import Verif.Props.EraBars
import Verif.Model.EjectaFig
import Verif.Props.EjectaFig
import Verif.Model.FigFiles
import Verif.Props.FigFiles
import Verif.Model.PyText
import Verif.Spec.PyText
import Verif.Lemmas.PyText
import Verif.Props.PyText
import Verif.Model.GridFig
import Verif.Props.GridFig
import Verif.Model.TimeFl
import Verif.Lemmas.TimeFl
import Verif.Props.TimeFl
import Verif.Spec.Sources
import Verif.Lemmas.Sources
import Verif.Props.Sources
import Verif.Props.CmapLocs
import Verif.Model.TimeFig
import Verif.Spec.TimeFig
import Verif.Lemmas.TimeFig
import Verif.Props.TimeFig
import Verif.Model.Quantile
import Verif.Spec.Quantile
import Verif.Lemmas.Quantile
import Verif.Props.Quantile
import Verif.Model.RngArg
import Verif.Spec.RngArg
import Verif.Lemmas.RngArg
import Verif.Props.RngArg
import Verif.Model.VolatFig
import Verif.Spec.VolatFig
import Verif.Lemmas.VolatFig
import Verif.Props.VolatFig
import Verif.Model.AgeFig
import Verif.Spec.AgeFig
import Verif.Lemmas.AgeFig
import Verif.Props.AgeFig
import Verif.Model.HopFig
import Verif.Spec.HopFig
import Verif.Props.HopFig
import Verif.Model.RetFig
import Verif.Props.RetFig
import Verif.Model.SpeedLaw
import Verif.Spec.SpeedLaw
import Verif.Lemmas.SpeedLaw
import Verif.Props.SpeedLaw
import Verif.Props.SpeedLawEx
import Verif.Spec.CannonRef
import Verif.Props.CannonRef
import Verif.Spec.CannonIce
import Verif.Props.CannonIce
import Verif.Spec.CannonRun
import Verif.Props.CannonRun
import Verif.Model.ScaleFig
import Verif.Spec.ScaleFig
import Verif.Lemmas.ScaleFig
import Verif.Props.ScaleFig
import Verif.Lemmas.TrigEval
import Verif.Spec.Reach
import Verif.Lemmas.Reach
import Verif.Lemmas.ReachTable
import Verif.Lemmas.BasinThick
import Verif.Props.Reach
import Verif.Model.AgesFig
import Verif.Spec.AgesFig
import Verif.Lemmas.AgesFig
import Verif.Props.AgesFig
import Verif.Spec.Gentler
import Verif.Lemmas.Gentler
import Verif.Props.Gentler
import Verif.Spec.Supply
import Verif.Lemmas.Supply
import Verif.Props.Supply
import Verif.Model.LayerFig
import Verif.Spec.LayerFig
import Verif.Props.LayerFig
import Verif.Model.DistFig
import Verif.Spec.DistFig
import Verif.Lemmas.DistFig
import Verif.Props.DistFig
import Verif.Model.EjBsedFig
import Verif.Spec.EjBsedFig
import Verif.Props.EjBsedFig
import Verif.Model.StratFig
import Verif.Spec.StratFig
import Verif.Lemmas.StratFig
import Verif.Props.StratFig
import Verif.Props.Frame
import Verif.Props.TempFit
import Verif.Props.KeNotebook
import Verif.Props.StatsScript
import Verif.Props.KeContours
import Verif.Model.MainUse
import Verif.Props.MainUse
import Verif.Props.VolcanicNk
import Verif.Props.ConfigConv
import Verif.Lemmas.Units
import Verif.Props.Units
import Verif.Lemmas.Idle
import Verif.Props.Idle
import Verif.Lemmas.Traps
import Verif.Props.Traps
import Verif.Lemmas.TwoTraps
import Verif.Props.TwoTraps
import Verif.Lemmas.TrapOrder
import Verif.Props.TrapOrder
import Verif.Model.OldScripts
import Verif.Props.OldScripts
import Verif.Lemmas.Ties
import Verif.Props.Ties
import Verif.Props.Calls
import Verif.Props.PctTable
import Verif.Spec.MeanIce
import Verif.Props.MeanIce
import Verif.Model.CountFl
import Verif.Props.CountFl
import Verif.Model.DocUse
import Verif.Props.DocUse
import Verif.Model.MainFrom
import Verif.Spec.Aloof
import Verif.Lemmas.Aloof
import Verif.Lemmas.AloofRun
import Verif.Props.Aloof
import Verif.Spec.Places
import Verif.Spec.Needs
import Verif.Lemmas.Places
import Verif.Props.Places
import Verif.Props.Needs
import Verif.Spec.LayDown
import Verif.Lemmas.LayDown
import Verif.Props.LayDown
import Verif.Spec.MassUnit
import Verif.Lemmas.MassUnit
import Verif.Props.MassUnit
import Verif.Model.IntCols
import Verif.Spec.IntCols
import Verif.Lemmas.IntCols
import Verif.Props.IntCols
import Verif.Spec.Dig
import Verif.Lemmas.Dig
import Verif.Props.Dig
import Verif.Props.InUse
import Verif.Props.Buried
import Verif.Props.Products
import Verif.Props.Steps
import Verif.Props.PerStep
import Verif.Props.Protect
import Verif.Props.Sensitive
import Verif.Props.GardenFl
import Verif.Props.Extra
import Verif.Props.CannonNb
import Verif.Props.Rename
import Verif.Props.RenameAll
import Verif.Props.Average
import Verif.Props.StepSupply
import Verif.Props.Spread
import Verif.Props.Damp
import Verif.Props.Records
import Verif.Props.Rate
import Verif.Props.Water
import Verif.Props.Refine
import Verif.Props.Background
import Verif.Props.TwoModels
import Verif.Props.LeftOut
import Verif.Props.Steady
import Verif.Props.Above
import Verif.Props.Brackets
import Verif.Props.Threshold
import Verif.Props.AfterAge
import Verif.Props.BeforeTrap
import Verif.Props.Richer
import Verif.Props.LayerCount
import Verif.Props.Named
import Verif.Props.Youngest
import Verif.Props.OneStep
import Verif.Props.IceLayer
import Verif.Props.Superposition
import Verif.Props.AllEjecta
import Verif.Props.Correlate
import Verif.Props.LayerAge
import Verif.Props.SinceTrap
import Verif.Props.Mutual
import Verif.Props.TwoSeeds
