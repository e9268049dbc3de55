import Verif.Props.Segmentation
import Verif.Props.Search
import Verif.Props.FullMode
import Verif.Props.Parallel
import Verif.Props.Dictionary
import Verif.Props.Userdict
import Verif.Props.Totals
import Verif.Props.ParallelHistory
import Verif.Props.Cache
import Verif.Props.Suggest
import Verif.Props.Posseg
import Verif.Props.PosWorld
import Verif.Props.Threads
import Verif.Props.ThreadRaces
import Verif.Props.AnyState
import Verif.Props.Keywords
import Verif.Props.TextRank
import Verif.Props.Lazy
import Verif.Props.Whoosh
import Verif.Props.CommandLine
import Verif.Props.Paddle
import Verif.Props.Stability
import Verif.Props.AddRace
import Verif.Props.UserFiles
import Verif.Props.Chars
import Verif.Props.SuggestValue
import Verif.Props.PosBest
import Verif.Props.CommandLineExact
import Verif.Props.RankValues
import Verif.Props.CacheFile
import Verif.Props.Modes
import Verif.Props.Repetition
import Verif.Props.Analyse
import Verif.Props.Cost
import Verif.Props.PosLazy
import Verif.Props.DictOrder
import Verif.Props.PosTags
import Verif.Props.Pair
import Verif.Props.PaddleSetup
import Verif.Props.TokenObject
import Verif.Props.RankGraph
import Verif.Props.Doubles
import Verif.Props.RankDoubles
import Verif.Props.RankLimit
import Verif.Props.ParallelModule
import Verif.Props.HmmShipped
import Verif.Props.PaddleTables
import Verif.Props.LacShipped
import Verif.Props.SuggestDouble
import Verif.Props.WhenInit
import Verif.Props.Calls
import Verif.Props.PosUnknown
import Verif.Props.DictSmall
import Verif.Props.Ieee
import Verif.Props.IeeeRank
import Verif.Props.SuggestFloat
import Verif.Props.RankAccuracy
import Verif.Props.TfidfFloat
import Verif.Props.PosCalls
import Verif.Props.FirstUse
import Verif.Props.KeyCalls
import Verif.Props.IdfRace
import Verif.Props.KeySolo
import Verif.Props.PosKnown
import Verif.Props.PosPossible
import Verif.Props.PosInit
import Verif.Props.FloatText
import Verif.Props.Again
import Verif.Props.Uncrossed
import Verif.Props.Undo
import Verif.Props.PosCost
import Verif.Props.UncrossedFull
import Verif.Props.HmmJoins
import Verif.Props.Lookahead
import Verif.Props.NeverWhole
import Verif.Props.Numbers
import Verif.Props.LongWords
import Verif.Props.JoinedTexts
import Verif.Props.Scaling
import Verif.Props.CommandOptions
import Verif.Props.LoadAgain
import Verif.Props.OutputSize
import Verif.Props.StopWords
import Verif.Props.Lookup
import Verif.Props.Appendix
import Verif.Props.Attributes
import Verif.Props.Factors
import Verif.Props.Renaming
import Verif.Props.PosAgree
import Verif.Props.Route
import Verif.Props.Repr
import Verif.Props.Joined
import Verif.Props.Messages
import Verif.Props.PathNames
import Verif.Props.Logging
import Verif.Props.RaiseIdf
import Verif.Props.MoreStopWords
import Verif.Props.RankSpan
import Verif.Props.Names
import Verif.Props.MoreOccurrences
import Verif.Props.LacSizes
import Verif.Props.LacSame
