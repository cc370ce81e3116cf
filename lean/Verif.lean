import Verif.Model.Dwz
import Verif.Model.Egf
import Verif.Model.Fifa
import Verif.Model.Ingo
import Verif.Model.Glicko
import Verif.Model.Glicko2
import Verif.Model.GlickoBoost
import Verif.Model.Sticko
import Verif.Model.Uscf
import Verif.Model.WengLin
import Verif.Model.TrueSkill
import Verif.Model.Convert
import Verif.FloatCheck
import Verif.Props.Dwz
import Verif.Props.Elo
import Verif.Props.Fifa
import Verif.Props.Egf
import Verif.Props.Glicko
import Verif.Props.Ingo
import Verif.Props.Uscf
import Verif.Props.GlickoBoost
import Verif.Props.Sticko
import Verif.Props.Glicko2
import Verif.Props.WengLin
import Verif.Props.TrueSkill
import Verif.Props.Traits
import Verif.Props.TrueSkillMulti
import Verif.Props.TrueSkillWeights
import Verif.Props.TrueSkillMatrix
import Verif.Props.TrueSkillFactorGraph
import Verif.Props.FloatScores
import Verif.Props.FloatDegenerate
import Verif.Props.FloatUpdates
import Verif.Props.BoostAnomaly
import Verif.Props.Fairness
import Verif.Props.Irrelevant
import Verif.Props.Monotone
import Verif.Props.Upsets
import Verif.Props.TrueSkillChain
import Verif.Props.FloatHistories
import Verif.Props.TrueSkillDraws
import Verif.Props.FloatTies
import Verif.Props.TrueSkillTies
import Verif.Props.MatchQuality
import Verif.Props.FloatWeights
import Verif.Props.Scale
import Verif.Props.Seats
import Verif.Props.Lineup
import Verif.Props.ScaleChain
import Verif.Props.LongRun
import Verif.Props.FloatAccuracy
import Verif.Props.Floors
import Verif.Props.TrueSkillBayes
import Verif.Props.TrueSkillMargin
import Verif.Props.TrueSkillBayesTeams
import Verif.Props.Likelihood
import Verif.Props.Forecast
import Verif.Props.Volatility
import Verif.Props.Glicko2Monotone
import Verif.Props.PeriodOrder
import Verif.Props.FloatDirections
import Verif.Props.FloatEgf
import Verif.Props.FloatSystems
import Verif.Props.FloatWengLin
import Verif.Props.TrueSkillResults
import Verif.Props.FloatPanics
import Verif.Props.FloatAccuracyGlicko
import Verif.Props.FloatAccuracyWengLin
import Verif.Props.FloatAccuracyTrueSkill
import Verif.Props.FloatBayes
import Verif.Props.FloatMargin
import Verif.Props.FloatGlicko2
import Verif.Props.FloatGlicko2Period
import Verif.Props.FloatAccuracyDwz
import Verif.Props.FloatAccuracyUscf
import Verif.Props.FloatFirstDwz
import Verif.Props.FloatAccuracyEgf
import Verif.Props.FloatAccuracySticko
import Verif.Props.FloatAccuracyBoost
import Verif.Props.FloatAccuracyMore
import Verif.Props.FloatAccuracyWlTeams
import Verif.Props.FloatBayesTeams
import Verif.Props.FloatBayesPeriod
import Verif.Props.FloatQuality
import Verif.Props.WengLinStable
import Verif.Props.Learning
import Verif.Props.FloatTrueSkillHistory
import Verif.Props.TrueSkillMixed
import Verif.Props.EloLearning
import Verif.Props.GlickoLearning
import Verif.Props.WengLinLearning
import Verif.Props.Season
import Verif.Props.FloatStickoHistory
import Verif.Props.StickoPull
import Verif.Props.Restless
import Verif.Props.SeasonConstant
import Verif.Props.Forget
import Verif.Props.IngoLearning
import Verif.Props.IngoPool
import Verif.Props.KeepOrder
import Verif.Props.DrawOrder
import Verif.Props.Experience
import Verif.Props.Triples
import Verif.Props.OneGame
import Verif.Props.Momentum
import Verif.Props.Idle
import Verif.Props.FloatResults
import Verif.Props.Inflation
import Verif.Props.Teammates
import Verif.Props.Batch
import Verif.Props.ExperienceSticko
import Verif.Props.Informative
import Verif.Props.WhomYouBeat
import Verif.Props.Parameters
import Verif.Props.WhomYouBeatMore
import Verif.Props.Outperform
import Verif.Props.FloatResultsMore
import Verif.Props.FloatResultsUscf
import Verif.Props.FloatResultsEgf
import Verif.Props.FloatResultsSticko
import Verif.Props.FloatSeats
import Verif.Props.FloatNan
import Verif.Props.FloatNanPeriods
import Verif.Props.FloatNanTeams
import Verif.Props.FloatEven
import Verif.Props.FloatEvenTrueSkill
import Verif.Props.FloatDrawn
import Verif.Props.FloatEvenWlTeams
import Verif.Props.FloatEvenColour
import Verif.Props.FloatIngoDraws
import Verif.Props.FloatScoreSum
import Verif.Props.FloatStrict
import Verif.Props.FloatOrder
