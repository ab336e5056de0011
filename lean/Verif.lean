import Verif.CsvModel
import Verif.CsvLemmas
import Verif.PropsCsv
import Verif.StringsModel
import Verif.StringsLemmas
import Verif.PropsStrings
import Verif.ContainerModel
import Verif.PropsContainer
import Verif.MutexModel
import Verif.MutexLemmas
import Verif.MutexRecLemmas
import Verif.MutexProgress
import Verif.PropsMutex
import Verif.PropsMutex2
import Verif.WorldBase
import Verif.WorldOps
import Verif.WorldMaps
import Verif.WorldCols
import Verif.WorldInv
import Verif.WorldSets
import Verif.WorldSets2
import Verif.WorldSets3
import Verif.WorldSets4
import Verif.WorldRefs
import Verif.WorldVault
import Verif.WorldVault2
import Verif.WorldVault3
import Verif.WorldVault4
import Verif.WorldVault5
import Verif.WorldVault6
import Verif.WorldVault7
import Verif.WorldVault8
import Verif.WorldMove
import Verif.WorldReach
import Verif.WorldObs
import Verif.WorldFrame
import Verif.PropsVault
import Verif.WorldAsk
import Verif.WorldCreate
import Verif.WorldAny
import Verif.WorldAny2
import Verif.WorldAny3
import Verif.WorldAny4
import Verif.WorldKeys
import Verif.PropsKeys
import Verif.PropsRecords
import Verif.WorldOut
import Verif.WorldAny5
import Verif.WorldFrameSet
import Verif.PropsResults
import Verif.PropsSets
import Verif.PropsLookup
import Verif.PropsLossless
import Verif.WorldFull
import Verif.PropsComplete
import Verif.PropsErase
import Verif.PropsUnique
import Verif.PropsCopy
import Verif.SortModel
import Verif.PropsSort
import Verif.PropsRefuted
import Verif.FileModel
import Verif.FileLemmas
import Verif.PropsFile
import Verif.PropsFile2
import Verif.JsonSpec
import Verif.TextModel
import Verif.JsonLemmas
import Verif.PropsJson
import Verif.PropsText
import Verif.WorldDeep
import Verif.WorldDeep2
import Verif.WorldDeep3
import Verif.WorldDeep4
import Verif.WorldDeep5
import Verif.WorldDeep6
import Verif.WorldDeep7
import Verif.WorldDeep8
import Verif.WorldDeep9
import Verif.WorldDeep10
import Verif.PropsCareful
import Verif.WorldCount
import Verif.PropsAny
import Verif.LifeModel
import Verif.LifeLemmas
import Verif.PropsLife
import Verif.LinModel
import Verif.PropsLin
import Verif.RaceModel
import Verif.PropsRace
import Verif.SaverHeap
import Verif.PropsSaver
import Verif.ReqHeap
import Verif.PropsReq
import Verif.MapModel
import Verif.PropsMap
import Verif.IndexModel
import Verif.IndexLemmas
import Verif.PropsIndex
import Verif.PropsMove
import Verif.WorldTypes
import Verif.ConfBase
import Verif.Conf1
import Verif.Conf2
import Verif.Conf3
import Verif.Conf4
import Verif.Conf5
import Verif.Conf6
import Verif.PropsTypes
import Verif.Conf7
import Verif.ConfTextBase
import Verif.ConfText

import Verif.WorldSeen
import Verif.PropsSeen
import Verif.TableSpec
import Verif.WorldTable
import Verif.WorldTable2
import Verif.WorldTable3
import Verif.WorldTable4
import Verif.WorldTable5
import Verif.PropsTable
import Verif.TableFacts
import Verif.TableLaws
import Verif.PropsTable2
import Verif.SetSpec
import Verif.SetFacts
import Verif.WorldWindow
import Verif.WorldWindow2
import Verif.WorldWindow3
import Verif.WorldWindow4
import Verif.WorldWindow5
import Verif.WorldWindow6
import Verif.PropsWindow
import Verif.WorldSim
import Verif.WorldSim2
import Verif.WorldSim3
import Verif.WorldGentle
import Verif.WorldGentle2
import Verif.WorldGentle3
import Verif.WorldGentle4
import Verif.AlgSpec
import Verif.WorldGentle5
import Verif.WorldGentle6
import Verif.PropsGentle
import Verif.TraceModel
import Verif.PropsTrace
import Verif.FileLemmas2
import Verif.PropsFile3
import Verif.FloatModel
import Verif.FloatLemmas
import Verif.PropsFloat
import Verif.WideModel
import Verif.PropsWide
import Verif.PropsWideJson
import Verif.ManyModel
import Verif.PropsLife2
import Verif.PropsMutex3
import Verif.MultiModel
import Verif.PropsMulti
import Verif.ExportModel
import Verif.PropsExport
import Verif.PropsShared
import Verif.ReentModel
import Verif.PropsReent
import Verif.FairModel
import Verif.PropsFair
import Verif.AskModel
import Verif.PropsAsk
import Verif.PropsReuse
import Verif.RecFairModel
import Verif.RecFairLemmas
import Verif.PropsRecFair
import Verif.PropsRfc
import Verif.PropsReader
import Verif.PropsCopy2
import Verif.PropsReent2
import Verif.PropsKeyFn
import Verif.PropsAnyCsv
import Verif.PropsCrash
import Verif.PropsExact
import Verif.PropsCopyLock
import Verif.PropsHandler
import Verif.PropsDiscipline
import Verif.PropsJsonExact
import Verif.PropsUuid
import Verif.PropsResultValue
import Verif.PropsReqLaws
import Verif.LoopModel
import Verif.PropsLoops
import Verif.PropsIdentity
import Verif.PropsSpurious
import Verif.OffModel
import Verif.PropsOff
import Verif.ParamModel
import Verif.PropsParam
import Verif.TableTwin
import Verif.PropsTwin
import Verif.PropsRestore
import Verif.PropsSaved
import Verif.SizeModel
import Verif.PropsSize
import Verif.RecordModel
import Verif.PropsRecordCopy
import Verif.TableBuild
import Verif.PropsRebuild
