import Verif.Base.Err
import Verif.Base.Num
import Verif.Base.Pandas
import Verif.Base.Text
import Verif.Base.Time
import Verif.Lemmas.Acc
import Verif.Lemmas.Again
import Verif.Lemmas.Aggregate
import Verif.Lemmas.AggregateFreq
import Verif.Lemmas.Align
import Verif.Lemmas.Averages
import Verif.Lemmas.Branching
import Verif.Lemmas.BristowCampbellRound
import Verif.Lemmas.BuildCasc
import Verif.Lemmas.Bunch
import Verif.Lemmas.Calendar
import Verif.Lemmas.Cascade
import Verif.Lemmas.CascadeGaps
import Verif.Lemmas.CascadeHeap
import Verif.Lemmas.CascadeIndep
import Verif.Lemmas.CascadeLaw
import Verif.Lemmas.CascadeMean
import Verif.Lemmas.CascadeRun
import Verif.Lemmas.Daily
import Verif.Lemmas.DailyB
import Verif.Lemmas.DailyRound
import Verif.Lemmas.DataIO
import Verif.Lemmas.DewRound
import Verif.Lemmas.Distribute
import Verif.Lemmas.Drop
import Verif.Lemmas.DrySpells
import Verif.Lemmas.DwdMeta
import Verif.Lemmas.FilesRound
import Verif.Lemmas.FilesRoundB
import Verif.Lemmas.FilesRoundC
import Verif.Lemmas.Frame
import Verif.Lemmas.Gradual
import Verif.Lemmas.Humidity
import Verif.Lemmas.Interp
import Verif.Lemmas.Interpolate
import Verif.Lemmas.InterpolateMore
import Verif.Lemmas.Isolation
import Verif.Lemmas.Json
import Verif.Lemmas.JsonStats
import Verif.Lemmas.Jumps
import Verif.Lemmas.LinErr
import Verif.Lemmas.Locality
import Verif.Lemmas.LocalityB
import Verif.Lemmas.Master
import Verif.Lemmas.Mix
import Verif.Lemmas.MixB
import Verif.Lemmas.Mono
import Verif.Lemmas.Moved
import Verif.Lemmas.Near
import Verif.Lemmas.NearAbs
import Verif.Lemmas.Nearest
import Verif.Lemmas.Overflow
import Verif.Lemmas.Peaks
import Verif.Lemmas.Phys
import Verif.Lemmas.PotRadNear
import Verif.Lemmas.PotRadNearB
import Verif.Lemmas.Radiation
import Verif.Lemmas.RadiationFit
import Verif.Lemmas.RadiationModels
import Verif.Lemmas.RadiationRound
import Verif.Lemmas.Refit
import Verif.Lemmas.RegressionRound
import Verif.Lemmas.RoundBits
import Verif.Lemmas.Rounding
import Verif.Lemmas.Rows
import Verif.Lemmas.SavedStats
import Verif.Lemmas.Seasons
import Verif.Lemmas.SelfFit
import Verif.Lemmas.SelfFitMean
import Verif.Lemmas.Series
import Verif.Lemmas.Smet
import Verif.Lemmas.SmetAgain
import Verif.Lemmas.SmetRound
import Verif.Lemmas.Station
import Verif.Lemmas.StationStatistics
import Verif.Lemmas.StationWiring
import Verif.Lemmas.StatisticsState
import Verif.Lemmas.Stats
import Verif.Lemmas.StatsRounding
import Verif.Lemmas.Sun
import Verif.Lemmas.SunNear
import Verif.Lemmas.SunNearB
import Verif.Lemmas.Temperature
import Verif.Lemmas.TemperatureCourse
import Verif.Lemmas.Text
import Verif.Lemmas.Units
import Verif.Lemmas.UnitsAggregate
import Verif.Lemmas.UnitsPrecip
import Verif.Lemmas.UnitsWind
import Verif.Lemmas.WetCount
import Verif.Lemmas.Wind
import Verif.Lemmas.WindFit
import Verif.Lemmas.WindLaw
import Verif.Model.Aggregate
import Verif.Model.AggregateRound
import Verif.Model.Bunch
import Verif.Model.Cascade
import Verif.Model.CascadeHeap
import Verif.Model.CascadeRound
import Verif.Model.CascadeRound5
import Verif.Model.CourseRound
import Verif.Model.DailyRound
import Verif.Model.DataIO
import Verif.Model.DewpointRound
import Verif.Model.DwdMeta
import Verif.Model.FilesRound
import Verif.Model.HourlyRound
import Verif.Model.Humidity
import Verif.Model.HumidityRound
import Verif.Model.Interpolate
import Verif.Model.InterpolateMore
import Verif.Model.InterpolateRound
import Verif.Model.Json
import Verif.Model.Names
import Verif.Model.PotRadRound
import Verif.Model.Precip
import Verif.Model.Radiation
import Verif.Model.RadiationFit
import Verif.Model.RadiationRound
import Verif.Model.RegressionRound
import Verif.Model.RegressionStats
import Verif.Model.ShiftRound
import Verif.Model.Smet
import Verif.Model.Station
import Verif.Model.StationStatistics
import Verif.Model.StatsRound
import Verif.Model.SubIndex
import Verif.Model.SunRound
import Verif.Model.Temperature
import Verif.Model.Util
import Verif.Model.UtilPhys
import Verif.Model.Wind
import Verif.Model.WindRound
import Verif.Props.Again
import Verif.Props.AgainB
import Verif.Props.Aggregate
import Verif.Props.AngSquares
import Verif.Props.AngTotal
import Verif.Props.Averages
import Verif.Props.BcTotal
import Verif.Props.Branching
import Verif.Props.BuildCasc
import Verif.Props.Bunch
import Verif.Props.Cascade
import Verif.Props.CascadeAmounts
import Verif.Props.CascadeAmountsB
import Verif.Props.CascadeGaps
import Verif.Props.CascadeHeap
import Verif.Props.CascadeIndep
import Verif.Props.CascadeLaw
import Verif.Props.CascadeMean
import Verif.Props.CascadeRun
import Verif.Props.Clocks
import Verif.Props.Coordinates
import Verif.Props.CourseRound
import Verif.Props.Daily
import Verif.Props.DailyB
import Verif.Props.DailyRound
import Verif.Props.DewRegressionRound
import Verif.Props.DewRound
import Verif.Props.DewTotal
import Verif.Props.DistributeGaps
import Verif.Props.DistributeMinutes
import Verif.Props.Drop
import Verif.Props.DrySpells
import Verif.Props.Dwd
import Verif.Props.DwdMeta
import Verif.Props.FileColumns
import Verif.Props.Files
import Verif.Props.FilesRound
import Verif.Props.FitAndUse
import Verif.Props.FitErrors
import Verif.Props.FitErrorsB
import Verif.Props.FitErrorsC
import Verif.Props.FitErrorsD
import Verif.Props.FitErrorsE
import Verif.Props.FiveMinutes
import Verif.Props.Gaps
import Verif.Props.Gradual
import Verif.Props.GradualB
import Verif.Props.Humidity
import Verif.Props.HumidityAlign
import Verif.Props.HumidityStats
import Verif.Props.Index
import Verif.Props.Interp
import Verif.Props.Interpolate
import Verif.Props.InterpolateMore
import Verif.Props.InterpolateRound
import Verif.Props.Isolation
import Verif.Props.Json
import Verif.Props.Jumps
import Verif.Props.Knmi
import Verif.Props.LineEnds
import Verif.Props.LoadedTables
import Verif.Props.Locality
import Verif.Props.LocalityB
import Verif.Props.Master
import Verif.Props.MeanCourse
import Verif.Props.Missing
import Verif.Props.Mix
import Verif.Props.Mono
import Verif.Props.MonoB
import Verif.Props.Near
import Verif.Props.NoData
import Verif.Props.ObsErrors
import Verif.Props.Options
import Verif.Props.Order
import Verif.Props.OrderB
import Verif.Props.OtherColumns
import Verif.Props.OtherColumnsStats
import Verif.Props.OtherDates
import Verif.Props.OtherDatesB
import Verif.Props.OtherDatesC
import Verif.Props.OtherDatesD
import Verif.Props.OtherDatesStats
import Verif.Props.OtherDatesStatsB
import Verif.Props.OtherStats
import Verif.Props.PackageTests
import Verif.Props.PackageTestsB
import Verif.Props.PackageTestsC
import Verif.Props.ParamErrors
import Verif.Props.Peaks
import Verif.Props.PotRadRound
import Verif.Props.PotRadiation
import Verif.Props.Radiation
import Verif.Props.RadiationFit
import Verif.Props.RadiationModels
import Verif.Props.RadiationRound
import Verif.Props.RecordErrors
import Verif.Props.Refit
import Verif.Props.RefitAng
import Verif.Props.RefitBc
import Verif.Props.RefitDew
import Verif.Props.RegressionRound
import Verif.Props.RegressionStats
import Verif.Props.Rounding
import Verif.Props.RoundingB
import Verif.Props.RoundingC
import Verif.Props.RoundingD
import Verif.Props.RoundingE
import Verif.Props.RowsOut
import Verif.Props.RowsOutB
import Verif.Props.RowsOutC
import Verif.Props.SampleStats
import Verif.Props.SavedShift
import Verif.Props.SavedStats
import Verif.Props.SelfFit
import Verif.Props.ShiftRound
import Verif.Props.SlopeSun
import Verif.Props.Smet
import Verif.Props.StationCoords
import Verif.Props.StationData
import Verif.Props.StationEndToEnd
import Verif.Props.StationSeasons
import Verif.Props.StationSeasonsGaps
import Verif.Props.StationState
import Verif.Props.StationStatistics
import Verif.Props.StationWiring
import Verif.Props.StatisticsRepeat
import Verif.Props.StatisticsState
import Verif.Props.StatsRound
import Verif.Props.StatsRounding
import Verif.Props.StatsRoundingB
import Verif.Props.SubIndex
import Verif.Props.Sun
import Verif.Props.SunGeometry
import Verif.Props.SunRound
import Verif.Props.Temperature
import Verif.Props.TemperatureB
import Verif.Props.TemperatureC
import Verif.Props.TemperatureD
import Verif.Props.TemperatureShift
import Verif.Props.Units
import Verif.Props.UnitsPrecip
import Verif.Props.UnitsWind
import Verif.Props.Vapor
import Verif.Props.WetCount
import Verif.Props.Wind
import Verif.Props.WindFit
import Verif.Props.WindLaw
import Verif.Props.WindRound
import Verif.Props.WindSpread
import Verif.Props.WindTotal
import Verif.Spec.Averages
import Verif.Spec.Basic
import Verif.Spec.Bunch
import Verif.Spec.CascadeIndep
import Verif.Spec.CascadeLaw
import Verif.Spec.CascadeMean
import Verif.Spec.DailyRound
import Verif.Spec.DataIO
import Verif.Spec.DrySpells
import Verif.Spec.DwdMeta
import Verif.Spec.FilesRound
import Verif.Spec.Gradual
import Verif.Spec.InterpolateMore
import Verif.Spec.Json
import Verif.Spec.Locality
import Verif.Spec.Mix
import Verif.Spec.Mono
import Verif.Spec.Near
import Verif.Spec.PackageTests
import Verif.Spec.Peaks
import Verif.Spec.Phys
import Verif.Spec.Precip
import Verif.Spec.Rad
import Verif.Spec.RadFit
import Verif.Spec.RadiationRound
import Verif.Spec.Rounding
import Verif.Spec.SampleStats
import Verif.Spec.SelfFit
import Verif.Spec.Smet
import Verif.Spec.Sun
import Verif.Spec.SunVector
import Verif.Spec.Temp
import Verif.Spec.Units
import Verif.Spec.UnitsPrecip
import Verif.Spec.WetCount
