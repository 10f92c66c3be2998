import Verif.Base.Np
import Verif.Base.Py
import Verif.Model.Atlas
import Verif.Model.Atmosphere
import Verif.Model.Basis
import Verif.Model.CalState
import Verif.Model.Candidates
import Verif.Model.ConvolveLines
import Verif.Model.Fit
import Verif.Model.FitLog
import Verif.Model.Hough
import Verif.Model.HoughIO
import Verif.Model.IntCoeff
import Verif.Model.IntWaves
import Verif.Model.LineFile
import Verif.Model.Logging
import Verif.Model.Match
import Verif.Model.Models
import Verif.Model.Plot
import Verif.Model.PlotLines
import Verif.Model.PlotSearch
import Verif.Model.Ransac
import Verif.Model.RefinePeaks
import Verif.Model.Seed
import Verif.Model.Sharing
import Verif.Model.Synthetic
import Verif.Model.UtilFilters
import Verif.Proofs.AffineFit
import Verif.Proofs.AffineLemmas
import Verif.Proofs.AffineMatch
import Verif.Proofs.AffineRansac
import Verif.Proofs.AffineSteps
import Verif.Proofs.ArcLemmas
import Verif.Proofs.AtmosLemmas
import Verif.Proofs.CalLemmas
import Verif.Proofs.CandLemmas
import Verif.Proofs.FilterLemmas
import Verif.Proofs.FitLemmas
import Verif.Proofs.FitMain
import Verif.Proofs.HoughLemmas
import Verif.Proofs.HoughMain
import Verif.Proofs.LoadLemmas
import Verif.Proofs.LoadMain
import Verif.Proofs.MatchLemmas
import Verif.Proofs.MatchMain
import Verif.Proofs.PixelFit
import Verif.Proofs.PixelHough
import Verif.Proofs.PixelMatch
import Verif.Proofs.PixelRansac
import Verif.Proofs.PixelSteps
import Verif.Proofs.PolyLemmas
import Verif.Proofs.PyLemmas
import Verif.Proofs.RansacLemmas
import Verif.Proofs.RansacMain
import Verif.Proofs.RobustLemmas
import Verif.Proofs.SessionLemmas
import Verif.Proofs.Toy
import Verif.Proofs.ToyKern
import Verif.Proofs.ToySession
import Verif.Props.AddAtlasProps
import Verif.Props.AddOrderProps
import Verif.Props.AddRemoveProps
import Verif.Props.AfterFitProps
import Verif.Props.AirDistanceProps
import Verif.Props.ArcOutsideProps
import Verif.Props.ArcProps
import Verif.Props.AtlasCountProps
import Verif.Props.AtlasOrderProps
import Verif.Props.AtlasProps
import Verif.Props.AtmosphereProps
import Verif.Props.BaselineProps
import Verif.Props.BasisProps
import Verif.Props.BinningProps
import Verif.Props.BrightDistanceProps
import Verif.Props.BruteProps
import Verif.Props.ByHandProps
import Verif.Props.CandMonoProps
import Verif.Props.CandidateProps
import Verif.Props.CandidateRankProps
import Verif.Props.ConfigOrderProps
import Verif.Props.ConsistentProps
import Verif.Props.DarkWindowProps
import Verif.Props.DegreeProps
import Verif.Props.DensityProps
import Verif.Props.DirectionProps
import Verif.Props.DoublePeakProps
import Verif.Props.EditProps
import Verif.Props.EvenPeaksProps
import Verif.Props.FailedMatchProps
import Verif.Props.FairProps
import Verif.Props.FarLineProps
import Verif.Props.FarPeakProps
import Verif.Props.FilterTwiceProps
import Verif.Props.FindTruthProps
import Verif.Props.FitFailProps
import Verif.Props.FitLogProps
import Verif.Props.FitLoopProps
import Verif.Props.FitProps
import Verif.Props.FitSampleProps
import Verif.Props.HistoryProps
import Verif.Props.HoughCallProps
import Verif.Props.HoughGridProps
import Verif.Props.HoughIOProps
import Verif.Props.HoughLoadProps
import Verif.Props.HoughProps
import Verif.Props.HoughShareProps
import Verif.Props.HoughVoteProps
import Verif.Props.InputsProps
import Verif.Props.IntCoeffProps
import Verif.Props.IntWaveProps
import Verif.Props.IntensityUnitProps
import Verif.Props.KeepMatchProps
import Verif.Props.KnownOrderProps
import Verif.Props.LeastSquaresProps
import Verif.Props.LineFileProps
import Verif.Props.LineFilters
import Verif.Props.LoggingProps
import Verif.Props.MatchInputsProps
import Verif.Props.MatchMonoProps
import Verif.Props.MatchProps
import Verif.Props.MatchQualityProps
import Verif.Props.MatchRepeatProps
import Verif.Props.MatchReturnsProps
import Verif.Props.ModelFns
import Verif.Props.NearMatchProps
import Verif.Props.NoiseProps
import Verif.Props.NumberTextProps
import Verif.Props.ObjectiveProps
import Verif.Props.OrderProps
import Verif.Props.OutlierProps
import Verif.Props.PeakOrderProps
import Verif.Props.PipelineProps
import Verif.Props.PixelZeroProps
import Verif.Props.PlotFitProps
import Verif.Props.PlotProps
import Verif.Props.PlotSearchProps
import Verif.Props.PolygonProps
import Verif.Props.ProvenanceProps
import Verif.Props.PruneProps
import Verif.Props.QuadraticProps
import Verif.Props.RansacProps
import Verif.Props.RansacTolProps
import Verif.Props.ReachProps
import Verif.Props.RecoverProps
import Verif.Props.RefineProps
import Verif.Props.RefineScaleProps
import Verif.Props.RefineScoreProps
import Verif.Props.RefitProps
import Verif.Props.RemoveAgainProps
import Verif.Props.RemoveCountProps
import Verif.Props.RemoveLoadedProps
import Verif.Props.RemoveOrderProps
import Verif.Props.RemoveRangeProps
import Verif.Props.RemoveRepeatProps
import Verif.Props.RepeatFitProps
import Verif.Props.RestoreProps
import Verif.Props.RisingProps
import Verif.Props.ScriptProps
import Verif.Props.SearchProps
import Verif.Props.SeedProps
import Verif.Props.SelectionProps
import Verif.Props.SettingsBounds
import Verif.Props.SettingsProps
import Verif.Props.SharingFailProps
import Verif.Props.SharingProps
import Verif.Props.SpectrumPlotProps
import Verif.Props.StaleProps
import Verif.Props.StoppedProps
import Verif.Props.SynthFitProps
import Verif.Props.SyntheticProps
import Verif.Props.ThresholdProps
import Verif.Props.TopCandProps
import Verif.Props.TrueMatchProps
import Verif.Props.TryOrderProps
import Verif.Props.TwiceProps
import Verif.Props.UnitProps
import Verif.Props.WeatherProps
import Verif.Props.WeightProps
import Verif.Spec.Affine
import Verif.Spec.Basis
import Verif.Spec.Candidates
import Verif.Spec.Conditions
import Verif.Spec.Edit
import Verif.Spec.Hough
import Verif.Spec.LineFile
import Verif.Spec.Lines
import Verif.Spec.Load
import Verif.Spec.Match
import Verif.Spec.Pixels
import Verif.Spec.Plot
import Verif.Spec.Poly
import Verif.Spec.Settings
import Verif.Spec.Str
