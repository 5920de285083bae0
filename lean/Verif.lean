import Verif.Base
import Verif.Model.Assignment
import Verif.Model.Costs
import Verif.Model.Demand
import Verif.Model.Depot
import Verif.Model.ExtGraph
import Verif.Model.Files
import Verif.Model.Graph
import Verif.Model.GraphText
import Verif.Model.Hyperpath
import Verif.Model.LoadText
import Verif.Model.Mode
import Verif.Model.Network
import Verif.Model.Optimizer
import Verif.Model.Pajek
import Verif.Model.PathPlot
import Verif.Model.PathText
import Verif.Model.Plot
import Verif.Model.Problem
import Verif.Model.Report
import Verif.Model.Results
import Verif.Model.RoutesFile
import Verif.Model.UsersCost
import Verif.Proofs.Alike
import Verif.Proofs.Behaviour
import Verif.Proofs.Bounds
import Verif.Proofs.Charges
import Verif.Proofs.Clock
import Verif.Proofs.Costs
import Verif.Proofs.Cycle
import Verif.Proofs.Demand
import Verif.Proofs.DemandContent
import Verif.Proofs.DemandParams
import Verif.Proofs.Dict
import Verif.Proofs.Domain
import Verif.Proofs.ExtEdges
import Verif.Proofs.ExtGraph
import Verif.Proofs.Families
import Verif.Proofs.Graph
import Verif.Proofs.GraphReal
import Verif.Proofs.GraphStreet
import Verif.Proofs.HyperNet
import Verif.Proofs.HyperNode
import Verif.Proofs.HyperOpt
import Verif.Proofs.HyperPaths
import Verif.Proofs.Hyperpath
import Verif.Proofs.Loading
import Verif.Proofs.Mode
import Verif.Proofs.Network
import Verif.Proofs.NetworkRoutes
import Verif.Proofs.Optimizer
import Verif.Proofs.Overall
import Verif.Proofs.Pajek
import Verif.Proofs.PajekReal
import Verif.Proofs.PajekText
import Verif.Proofs.Prices
import Verif.Proofs.PyLemmas
import Verif.Proofs.RatText
import Verif.Proofs.Report
import Verif.Proofs.Results
import Verif.Proofs.RoutesFile
import Verif.Proofs.Scale
import Verif.Proofs.ScaleSearch
import Verif.Proofs.Shares
import Verif.Proofs.Sim
import Verif.Proofs.Symmetry
import Verif.Proofs.Text
import Verif.Proofs.Transport
import Verif.Proofs.Trips
import Verif.Proofs.Turn
import Verif.Proofs.UnitsCity
import Verif.Proofs.UnitsCost
import Verif.Proofs.UnitsDemand
import Verif.Proofs.UnitsLoad
import Verif.Proofs.UnitsNet
import Verif.Proofs.UnitsOpt
import Verif.Proofs.UnitsSearch
import Verif.Proofs.UnitsUsers
import Verif.Proofs.Users
import Verif.Proofs.Via
import Verif.Props.Additive
import Verif.Props.Assigned
import Verif.Props.Assignment
import Verif.Props.Behaviour
import Verif.Props.BestFactor
import Verif.Props.Bounds
import Verif.Props.Buildable
import Verif.Props.CircularTime
import Verif.Props.City
import Verif.Props.Clock
import Verif.Props.ClockFamilies
import Verif.Props.Constructor
import Verif.Props.Costs
import Verif.Props.Demand
import Verif.Props.Depot
import Verif.Props.ExpressClock
import Verif.Props.ExpressFamilies
import Verif.Props.ExtGraph
import Verif.Props.Families
import Verif.Props.Files
import Verif.Props.GraphText
import Verif.Props.Honest
import Verif.Props.Hyperpath
import Verif.Props.Idle
import Verif.Props.Inbound
import Verif.Props.Later
import Verif.Props.LoadText
import Verif.Props.MixedPrices
import Verif.Props.Mode
import Verif.Props.Network
import Verif.Props.Optimizer
import Verif.Props.Overall
import Verif.Props.OverallCases
import Verif.Props.Pajek
import Verif.Props.PajekCases
import Verif.Props.PajekReal
import Verif.Props.PathPlot
import Verif.Props.PathText
import Verif.Props.PerLine
import Verif.Props.Plot
import Verif.Props.Prices
import Verif.Props.Problem
import Verif.Props.Rebuild
import Verif.Props.RemoveMode
import Verif.Props.Rename
import Verif.Props.Report
import Verif.Props.Results
import Verif.Props.ResultsCases
import Verif.Props.Rides
import Verif.Props.Ring
import Verif.Props.RoutesFile
import Verif.Props.Scale
import Verif.Props.Service
import Verif.Props.Shared
import Verif.Props.Shares
import Verif.Props.Split
import Verif.Props.StopOrder
import Verif.Props.Symmetry
import Verif.Props.TimeOnBoard
import Verif.Props.TotalCost
import Verif.Props.Units
import Verif.Props.UsersCost
import Verif.Props.Via
import Verif.Replay.Assignment
import Verif.Replay.City
import Verif.Replay.Costs
import Verif.Replay.Network
import Verif.Replay.Notebook
import Verif.Spec.Assigned
import Verif.Spec.Assignment
import Verif.Spec.City
import Verif.Spec.Clock
import Verif.Spec.Costs
import Verif.Spec.Demand
import Verif.Spec.Depot
import Verif.Spec.ExtGraph
import Verif.Spec.Families
import Verif.Spec.Files
import Verif.Spec.GraphText
import Verif.Spec.Honest
import Verif.Spec.Hyperpath
import Verif.Spec.Later
import Verif.Spec.LoadText
import Verif.Spec.Mode
import Verif.Spec.Network
import Verif.Spec.Optimizer
import Verif.Spec.Pajek
import Verif.Spec.PajekReal
import Verif.Spec.PathPlot
import Verif.Spec.PathText
import Verif.Spec.Plot
import Verif.Spec.Prices
import Verif.Spec.Problem
import Verif.Spec.RatMath
import Verif.Spec.RealMath
import Verif.Spec.Report
import Verif.Spec.Results
import Verif.Spec.Rides
import Verif.Spec.RoutesFile
import Verif.Spec.Scale
import Verif.Spec.Shared
import Verif.Spec.Trips
import Verif.Spec.Units
import Verif.Spec.UsersCost
import Verif.Text
