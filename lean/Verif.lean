import Verif.Lemmas.Range
import Verif.Lemmas.Average
import Verif.Props.Accumulation
import Verif.Props.Average
import Verif.Props.HalfWeights
import Verif.Props.AggregationMisc
import Verif.Props.Conversion
import Verif.Props.Scaling
import Verif.Props.TableApply
import Verif.Props.Correction
import Verif.Props.Messages
import Verif.Lemmas.Reader
import Verif.Props.ReaderSelect
import Verif.Props.ReaderInfo
import Verif.Props.ReaderHandles
import Verif.Props.Context
import Verif.Props.Exe
import Verif.Props.UserConf
import Verif.Props.Config
import Verif.Props.ConfigOps
import Verif.Props.Strings
import Verif.Props.Writers
import Verif.Props.Controller
import Verif.Props.Tables
import Verif.Props.TablesHistory
import Verif.Props.TablesShared
import Verif.Props.TableIds
import Verif.Props.TablesCrash
import Verif.Props.GribLib
import Verif.Props.GribInvdist
import Verif.Props.ScipyNear
import Verif.Props.ScipyWeights
import Verif.Props.ScipyDirectional
import Verif.Props.ScipyGeom
import Verif.Props.Sphere
import Verif.Props.Api
import Verif.Props.ExeMore
import Verif.Props.NumberText
import Verif.Model.ScipyCdd
import Verif.Props.ScipyCdd
import Verif.Model.Bilinear
import Verif.Props.Bilinear
import Verif.Props.BilinearStuck
import Verif.Model.Angle
import Verif.Props.BilinearRoot
import Verif.Props.Angle
import Verif.Model.Memory
import Verif.Props.Memory
import Verif.Props.StringsMore
import Verif.Model.Maps
import Verif.Props.Maps
import Verif.Props.UserConfMore
import Verif.Model.Delaunay
import Verif.Props.Delaunay
import Verif.Props.DelaunayTable
import Verif.Props.DelaunayValues
import Verif.Model.Pipeline
import Verif.Props.Pipeline
import Verif.Props.PipelineRun
import Verif.Props.PipelineTwo
import Verif.Props.PipelineMissing
import Verif.Props.PipelineBounds
import Verif.Props.StoreRun
import Verif.Props.Heights
import Verif.Props.ContextMore
import Verif.Model.FileRun
import Verif.Props.FileRun
import Verif.Model.NetcdfRun
import Verif.Props.NetcdfRun
import Verif.Props.NetcdfCommand
import Verif.Props.TwoFileCommand
import Verif.Model.TwoFiles
import Verif.Props.TwoFiles
import Verif.Props.BilinearChecks
import Verif.Props.ScipyGlobal
import Verif.Model.ArgParse
import Verif.Props.ArgParse
import Verif.Props.ArgParseMore
import Verif.Model.CommandRun
import Verif.Props.CommandRun
import Verif.Props.RunKinds
import Verif.Props.NetcdfKinds
import Verif.Props.TwoGrids
import Verif.Props.NetcdfTwo
import Verif.Props.TwoGridCommand
import Verif.Model.TableRun
import Verif.Props.TableRun
import Verif.Model.TableCommand
import Verif.Props.TableCommand
import Verif.Props.TableCommandTwo
import Verif.Props.TableCommandEnds
import Verif.Props.AverageZero
import Verif.Props.TwoFileEnds
import Verif.Props.TwoTables
import Verif.Model.Details
import Verif.Props.Details
import Verif.Model.ApiRun
import Verif.Props.ApiRun
import Verif.Props.ApiRunTwo
import Verif.Props.SplitRuns
import Verif.Model.ApiStore
import Verif.Props.ApiStore
import Verif.Model.ApiCommand
import Verif.Props.ApiCommand
