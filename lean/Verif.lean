import Verif.Props.Bytes
import Verif.Props.Arith
import Verif.Props.P256
import Verif.Props.Bip
import Verif.Props.Bp
import Verif.Props.BnField
import Verif.Props.BnGroup
import Verif.Props.BnBytes
import Verif.Props.BnPair
import Verif.Props.Bb
import Verif.Props.CcsSet
import Verif.Props.CcsUL
import Verif.Props.CcsRange
import Verif.Props.CcsMisc
import Verif.Props.Json
import Verif.Props.JsonText
import Verif.Props.BpSound
import Verif.Props.Sha256
import Verif.Props.BpHide
import Verif.Props.GoVerify
import Verif.Props.IpSound
import Verif.Props.Heap
import Verif.Props.BnHeap
import Verif.Props.GoProve
import Verif.Props.BpExtract
import Verif.Props.CcsSound
import Verif.Props.CcsZk
import Verif.Props.HonestFail
import Verif.Props.CcsHonestFail
import Verif.Props.CcsKey
import Verif.Props.Par
import Verif.Props.BnText
import Verif.Props.CcsHeap
import Verif.Props.Text
import Verif.Props.RepoTests
import Verif.Props.CcsRace
import Verif.Props.BnHeapField
import Verif.Props.Small
import Verif.Props.BnPool
import Verif.Props.CcsPar
import Verif.Props.GoCcs
import Verif.Props.CcsMix
import Verif.Props.GoBn
import Verif.Props.GoBnMean
import Verif.Props.JsonSize
import Verif.Props.BnTrace
import Verif.Props.GoP256
import Verif.Props.BpCost
import Verif.Props.BpWork
import Verif.Props.Homo
import Verif.Props.Malleable
import Verif.Props.CcsMalleable
import Verif.Props.MapToGroup
import Verif.Props.BipSetup
import Verif.Props.BpExp
import Verif.Props.CcsCost
import Verif.Props.CcsExamples
import Verif.Props.Readme
import Verif.Props.JsonErr
import Verif.Props.Forge
import Verif.Props.BpTie
